import Verif.Lemmas.TransDict
import Verif.Props.Parser

/-!
# Translating whole programs: C74
-/

namespace Verif.Props.TransProg
open Verif (Out)
open Verif.Spec (Dict Node DLine english dictFile NotesFit EndsWithWord Balanced lastOf)
open Verif.Spec.Lexer Verif.Spec.Parser Verif.Spec.Retell
open Verif.Model (Text)
open Verif.Model.TransProg (program)
open Verif.Model.Trans (Loaded load)
open Verif.Model.Parser (parse PR)
open Verif.Lemmas.TransProg
open Verif.Props.Parser (word_written answer)
open Verif.Props.Trans (plains_of)

/-- C74, part: a program that is laid out regularly is translated piece by piece: every word, message and text as the
dictionary says, with each part of a message at its place, whatever is nested in its arguments; every symbol by the symbol
of the other language; and the numbers with the separators of the other language. Missing: programs that are laid out in
another way (see the theorems about violations), and comments. -/
theorem C74_partial (d d' : Dict) (hd : GoodDict d) (hk : CalmDict d) (hs : GoodSeps d) (ls : List DLine)
    (hc : Covers d d' ls) (L : Loaded) (hL : load d.param (dictFile ls) = .ok L) (es : List Node) (hg : gramStmts d es = true)
    (hm : ∀ ps ∈ namesOf es, Matched d.param d'.param ls ps) (pieces : List Piece) (tail : List UInt8)
    (hp : pieces.map Piece.cell = cellStmts d (sayOf d.param d'.param ls) es)
    (hl : Laid d d' (sayOf d.param d'.param ls) pieces tail) (ht : ∀ c ∈ tail, blank c = true) :
    program d L (source pieces tail) = .ok (target pieces tail) :=
  program_runs hd hk (knows hs hc hL hm) hg hp hl ht

/-- C74, part: translation keeps the meaning: the program is parsed to a tree, its translation (by an interpreter for the
other language) to the translated tree, if the words of the translation can be recognised in the other language. Missing: as
above. -/
theorem C74_meaning_partial (d d' : Dict) (hd : GoodDict d) (hd' : GoodDict d') (hk : CalmDict d) (hs : GoodSeps d)
    (ls : List DLine) (hc : Covers d d' ls) (L : Loaded) (hL : load d.param (dictFile ls) = .ok L) (es : List Node)
    (hg : gramStmts d es = true) (hg' : gramStmts d' (trNodes (sayOf d.param d'.param ls) es) = true)
    (hmy : inDict 116 ls d.my = some d'.my) (hvar : inDict 116 ls d.var = some d'.var)
    (hm : ∀ ps ∈ namesOf es, Matched d.param d'.param ls ps) (pieces : List Piece) (tail : List UInt8)
    (hp : pieces.map Piece.cell = cellStmts d (sayOf d.param d'.param ls) es)
    (hl : Laid d d' (sayOf d.param d'.param ls) pieces tail) (hl' : Relaid d' (sayOf d.param d'.param ls) pieces tail)
    (ht : ∀ c ∈ tail, blank c = true) :
    ∃ out, program d L (source pieces tail) = .ok out ∧
      answer (parse d (source pieces tail)) = some (es, false) ∧
      answer (parse d' out) = some (trNodes (sayOf d.param d'.param ls) es, false) := by
  have K := knows hs hc hL hm
  refine ⟨_, C74_partial d d' hd hk hs ls hc L hL es hg hm pieces tail hp hl ht, ?_, ?_⟩
  · have h := laid_lay ht hl
    rw [show (pieces.map fun p => p.cell.lexeme) = (pieces.map Piece.cell).map Cell.lexeme by rw [List.map_map]; rfl, hp,
      lex_stmts es K.len] at h
    obtain ⟨s, h1, h2⟩ := Verif.Props.Parser.C34 d hd es _ hg h
    rw [h2]
    show some (es, s.err) = _
    rw [h1]
  · have h := relaid_lay ht hl hl'
    rw [show (pieces.map fun p => p.cell.lexeme' (sayOf d.param d'.param ls)) =
        (pieces.map Piece.cell).map (Cell.lexeme' (sayOf d.param d'.param ls)) by rw [List.map_map]; rfl, hp,
      lex_stmts' (d' := d') (by show (inDict 116 ls d.my).getD _ = _; rw [hmy]; rfl)
        (by show (inDict 116 ls d.var).getD _ = _; rw [hvar]; rfl) es K.len] at h
    obtain ⟨s, h1, h2⟩ := Verif.Props.Parser.C34 d' hd' _ _ hg' h
    rw [h2]
    show some (_, s.err) = _
    rw [h1]

/-! ## An example: from English to Ukrainian -/

/-- The Ukrainian dictionary, `i18n/uk/dictionary.h`. -/
def ukrainian : Dict where
  eol := [46]
  chain := [44]
  assign := [226, 137, 148]
  ret := [226, 134, 178]
  qo := [226, 128, 152]
  qc := [226, 128, 153]
  tho := [46]
  dec := [44]
  my := [226, 154, 191]
  var := [226, 152, 158]
  param := 58

/-- Some lines of a dictionary. -/
def lines1 : List DLine :=
  [⟨116, [46], none, [46]⟩,
   ⟨116, [44], none, [44]⟩,
   ⟨116, [58, 61], none, [226, 137, 148]⟩,
   ⟨116, [58], none, [58]⟩,
   ⟨116, [60, 45], none, [226, 134, 178]⟩,
   ⟨116, [91, 39], none, [226, 128, 152]⟩,
   ⟨116, [39, 93], none, [226, 128, 153]⟩,
   ⟨100, [46], none, [44]⟩,
   ⟨120, [44], none, [46]⟩,
   ⟨116, [62, 62], none, [226, 152, 158]⟩,
   ⟨116, [111, 119, 110], none, [226, 154, 191]⟩,
   ⟨116, [112, 117, 116, 58, 97, 116, 58], none, [208, 191, 208, 190, 209, 129, 209, 130, 208, 176, 208, 178, 208, 184, 209, 130, 208, 184, 58, 209, 131, 58]⟩,
   ⟨116, [112, 117, 116, 58], none, [208, 191, 208, 190, 208, 186, 208, 187, 208, 176, 209, 129, 209, 130, 208, 184, 58]⟩,
   ⟨115, [104, 105], none, [208, 191, 209, 128, 208, 184, 208, 178, 209, 150, 209, 130]⟩,
   ⟨116, [110, 101, 103, 97, 116, 105, 118, 101, 63], none, [208, 189, 208, 181, 208, 179, 208, 176, 209, 130, 208, 184, 208, 178, 208, 189, 208, 184, 208, 185, 63]⟩]

/-- The translation they give. -/
def words1 : Say := sayOf 58 58 lines1

theorem laid_next {d d' : Dict} {W : Say} {p : Piece} {ps : List Piece} {rest : List UInt8} (h1 : ∀ c ∈ p.gap, blank c = true)
    (h2 : Written d p.cell.lexeme p.bytes (source ps rest)) (h3 : Regular d p.cell p.gap p.bytes (source ps rest))
    (h4 : New d' W d p.cell p.bytes p.new) (h5 : Laid d d' W ps rest) : Laid d d' W (p :: ps) rest := ⟨h1, h2, h3, h4, h5⟩

theorem relaid_next {d' : Dict} {W : Say} {p : Piece} {ps : List Piece} {rest : List UInt8}
    (h1 : Written d' (p.cell.lexeme' W) p.new (target ps rest)) (h2 : Relaid d' W ps rest) : Relaid d' W (p :: ps) rest := ⟨h1, h2⟩

instance (d : Dict) (r : List UInt8) : Decidable (Calm d r) := by unfold Calm; infer_instance
instance (d : Dict) (b r : List UInt8) : Decidable (Quiet d b r) := by unfold Quiet; infer_instance
instance (d : Dict) (c : Cell) (g b r : List UInt8) : Decidable (Regular d c g b r) := by
  cases c <;> unfold Regular <;> infer_instance

/-- The pieces of the program
`>> a := 1,000.5 + 2 negative?.`
`a put: (b put: 3 at: ['hi']) at: {:x x foo: 4. }, negative?.`
`<- own q.`, which becomes
`☞ a ≔ 1.000,5 + 2 негативний?.`
`a поставити: (b поставити: 3 у: ‘привіт’) у: { :x x foo: 4. }, негативний?. ↲ ⚿ q.` -/
def pieces1 : List Piece :=
  [⟨[], .word [62, 62], [62, 62], [226, 152, 158]⟩,
   ⟨[32], .word [97], [97], [97]⟩,
   ⟨[32], .assign, [58, 61], [226, 137, 148]⟩,
   ⟨[32], .num false [49, 48, 48, 48, 46, 53], [49, 44, 48, 48, 48, 46, 53], [49, 46, 48, 48, 48, 44, 53]⟩,
   ⟨[32], .word [43], [43], [43]⟩,
   ⟨[32], .num false [50], [50], [50]⟩,
   ⟨[32], .word [110, 101, 103, 97, 116, 105, 118, 101, 63], [110, 101, 103, 97, 116, 105, 118, 101, 63], [208, 189, 208, 181, 208, 179, 208, 176, 209, 130, 208, 184, 208, 178, 208, 189, 208, 184, 208, 185, 63]⟩,
   ⟨[], .eol, [46], [46]⟩,
   ⟨[10], .word [97], [97], [97]⟩,
   ⟨[32], .key true [112, 117, 116] [208, 191, 208, 190, 209, 129, 209, 130, 208, 176, 208, 178, 208, 184, 209, 130, 208, 184], [112, 117, 116], [208, 191, 208, 190, 209, 129, 209, 130, 208, 176, 208, 178, 208, 184, 209, 130, 208, 184]⟩,
   ⟨[], .sign, [58], [58]⟩,
   ⟨[32], .popen, [40], [40]⟩,
   ⟨[], .word [98], [98], [98]⟩,
   ⟨[32], .key true [112, 117, 116] [208, 191, 208, 190, 209, 129, 209, 130, 208, 176, 208, 178, 208, 184, 209, 130, 208, 184], [112, 117, 116], [208, 191, 208, 190, 209, 129, 209, 130, 208, 176, 208, 178, 208, 184, 209, 130, 208, 184]⟩,
   ⟨[], .sign, [58], [58]⟩,
   ⟨[32], .num true [51], [51], [51]⟩,
   ⟨[32], .key false [97, 116] [209, 131], [97, 116], [209, 131]⟩,
   ⟨[], .sign, [58], [58]⟩,
   ⟨[32], .lit [104, 105], [91, 39, 104, 105, 39, 93], [226, 128, 152, 208, 191, 209, 128, 208, 184, 208, 178, 209, 150, 209, 130, 226, 128, 153]⟩,
   ⟨[], .pclose, [41], [41]⟩,
   ⟨[32], .key false [97, 116] [209, 131], [97, 116], [209, 131]⟩,
   ⟨[], .sign, [58], [58]⟩,
   ⟨[32], .bopen, [123], [123]⟩,
   ⟨[], .param, [58], [58]⟩,
   ⟨[], .word [120], [120], [120]⟩,
   ⟨[32], .word [120], [120], [120]⟩,
   ⟨[32], .key true [102, 111, 111] [102, 111, 111], [102, 111, 111], [102, 111, 111]⟩,
   ⟨[], .sign, [58], [58]⟩,
   ⟨[32], .num true [52], [52], [52]⟩,
   ⟨[], .eol, [46], [46]⟩,
   ⟨[32], .bclose, [125], [125]⟩,
   ⟨[], .chain, [44], [44]⟩,
   ⟨[32], .word [110, 101, 103, 97, 116, 105, 118, 101, 63], [110, 101, 103, 97, 116, 105, 118, 101, 63], [208, 189, 208, 181, 208, 179, 208, 176, 209, 130, 208, 184, 208, 178, 208, 189, 208, 184, 208, 185, 63]⟩,
   ⟨[], .eol, [46], [46]⟩,
   ⟨[10], .ret, [60, 45], [226, 134, 178]⟩,
   ⟨[32], .word [111, 119, 110], [111, 119, 110], [226, 154, 191]⟩,
   ⟨[32], .word [113], [113], [113]⟩,
   ⟨[], .eol, [46], [46]⟩]

theorem pieces1_laid : Laid english ukrainian words1 pieces1 [10] := by
  unfold pieces1
  refine laid_next (by decide +kernel) (word_written (cs := ['>', '>']) (by decide +kernel) (by decide +kernel)) (by decide +kernel) (by show ([226, 152, 158] : List UInt8) = _; decide +kernel) ?_
  refine laid_next (by decide +kernel) (word_written (cs := ['a']) (by decide +kernel) (by decide +kernel)) (by decide +kernel) (by show ([97] : List UInt8) = _; decide +kernel) ?_
  refine laid_next (by decide +kernel) (.inl rfl) (by decide +kernel) (rfl) ?_
  refine laid_next (by decide +kernel) (⟨[], [[49], [48, 48, 48]], [53], by decide +kernel, by decide +kernel, .inl rfl, by decide +kernel, by decide +kernel, by decide +kernel, by decide +kernel, by decide +kernel, by decide +kernel⟩) (by decide +kernel) (⟨[], [[49], [48, 48, 48]], [53], .inl rfl, by decide +kernel, by decide +kernel, by decide +kernel, by decide +kernel⟩) ?_
  refine laid_next (by decide +kernel) (word_written (cs := ['+']) (by decide +kernel) (by decide +kernel)) (by decide +kernel) (by show ([43] : List UInt8) = _; decide +kernel) ?_
  refine laid_next (by decide +kernel) (⟨[], [[50]], [], by decide +kernel, by decide +kernel, .inl rfl, by decide +kernel, by decide +kernel, by decide +kernel, by decide +kernel, by decide +kernel, by decide +kernel⟩) (by decide +kernel) (⟨[], [[50]], [], .inl rfl, by decide +kernel, by decide +kernel, by decide +kernel, by decide +kernel⟩) ?_
  refine laid_next (by decide +kernel) (word_written (cs := ['n', 'e', 'g', 'a', 't', 'i', 'v', 'e', '?']) (by decide +kernel) (by decide +kernel)) (by decide +kernel) (by show ([208, 189, 208, 181, 208, 179, 208, 176, 209, 130, 208, 184, 208, 178, 208, 189, 208, 184, 208, 185, 63] : List UInt8) = _; decide +kernel) ?_
  refine laid_next (by decide +kernel) (rfl) (by decide +kernel) (rfl) ?_
  refine laid_next (by decide +kernel) (word_written (cs := ['a']) (by decide +kernel) (by decide +kernel)) (by decide +kernel) (by show ([97] : List UInt8) = _; decide +kernel) ?_
  refine laid_next (by decide +kernel) (word_written (cs := ['p', 'u', 't']) (by decide +kernel) (by decide +kernel)) (by decide +kernel) (by show ([208, 191, 208, 190, 209, 129, 209, 130, 208, 176, 208, 178, 208, 184, 209, 130, 208, 184] : List UInt8) = _; decide +kernel) ?_
  refine laid_next (by decide +kernel) (⟨rfl, by decide +kernel⟩) (by decide +kernel) (rfl) ?_
  refine laid_next (by decide +kernel) (rfl) (by decide +kernel) (rfl) ?_
  refine laid_next (by decide +kernel) (word_written (cs := ['b']) (by decide +kernel) (by decide +kernel)) (by decide +kernel) (by show ([98] : List UInt8) = _; decide +kernel) ?_
  refine laid_next (by decide +kernel) (word_written (cs := ['p', 'u', 't']) (by decide +kernel) (by decide +kernel)) (by decide +kernel) (by show ([208, 191, 208, 190, 209, 129, 209, 130, 208, 176, 208, 178, 208, 184, 209, 130, 208, 184] : List UInt8) = _; decide +kernel) ?_
  refine laid_next (by decide +kernel) (⟨rfl, by decide +kernel⟩) (by decide +kernel) (rfl) ?_
  refine laid_next (by decide +kernel) (⟨[], [[51]], [], by decide +kernel, by decide +kernel, .inl rfl, by decide +kernel, by decide +kernel, by decide +kernel, by decide +kernel, by decide +kernel, by decide +kernel⟩) (by decide +kernel) (⟨[], [[51]], [], .inl rfl, by decide +kernel, by decide +kernel, by decide +kernel, by decide +kernel⟩) ?_
  refine laid_next (by decide +kernel) (word_written (cs := ['a', 't']) (by decide +kernel) (by decide +kernel)) (by decide +kernel) (by show ([209, 131] : List UInt8) = _; decide +kernel) ?_
  refine laid_next (by decide +kernel) (⟨rfl, by decide +kernel⟩) (by decide +kernel) (rfl) ?_
  refine laid_next (by decide +kernel) (⟨by decide +kernel, Nested.byte (by decide +kernel) (by decide +kernel) (Nested.byte (by decide +kernel) (by decide +kernel) (Nested.nil _))⟩) (by decide +kernel) (by show ([226, 128, 152, 208, 191, 209, 128, 208, 184, 208, 178, 209, 150, 209, 130, 226, 128, 153] : List UInt8) = _; decide +kernel) ?_
  refine laid_next (by decide +kernel) (rfl) (by decide +kernel) (rfl) ?_
  refine laid_next (by decide +kernel) (word_written (cs := ['a', 't']) (by decide +kernel) (by decide +kernel)) (by decide +kernel) (by show ([209, 131] : List UInt8) = _; decide +kernel) ?_
  refine laid_next (by decide +kernel) (⟨rfl, by decide +kernel⟩) (by decide +kernel) (rfl) ?_
  refine laid_next (by decide +kernel) (rfl) (by decide +kernel) (rfl) ?_
  refine laid_next (by decide +kernel) (⟨rfl, by decide +kernel⟩) (by decide +kernel) (rfl) ?_
  refine laid_next (by decide +kernel) (word_written (cs := ['x']) (by decide +kernel) (by decide +kernel)) (by decide +kernel) (by show ([120] : List UInt8) = _; decide +kernel) ?_
  refine laid_next (by decide +kernel) (word_written (cs := ['x']) (by decide +kernel) (by decide +kernel)) (by decide +kernel) (by show ([120] : List UInt8) = _; decide +kernel) ?_
  refine laid_next (by decide +kernel) (word_written (cs := ['f', 'o', 'o']) (by decide +kernel) (by decide +kernel)) (by decide +kernel) (by show ([102, 111, 111] : List UInt8) = _; decide +kernel) ?_
  refine laid_next (by decide +kernel) (⟨rfl, by decide +kernel⟩) (by decide +kernel) (rfl) ?_
  refine laid_next (by decide +kernel) (⟨[], [[52]], [], by decide +kernel, by decide +kernel, .inl rfl, by decide +kernel, by decide +kernel, by decide +kernel, by decide +kernel, by decide +kernel, by decide +kernel⟩) (by decide +kernel) (⟨[], [[52]], [], .inl rfl, by decide +kernel, by decide +kernel, by decide +kernel, by decide +kernel⟩) ?_
  refine laid_next (by decide +kernel) (rfl) (by decide +kernel) (rfl) ?_
  refine laid_next (by decide +kernel) (rfl) (by decide +kernel) (rfl) ?_
  refine laid_next (by decide +kernel) (rfl) (by decide +kernel) (rfl) ?_
  refine laid_next (by decide +kernel) (word_written (cs := ['n', 'e', 'g', 'a', 't', 'i', 'v', 'e', '?']) (by decide +kernel) (by decide +kernel)) (by decide +kernel) (by show ([208, 189, 208, 181, 208, 179, 208, 176, 209, 130, 208, 184, 208, 178, 208, 189, 208, 184, 208, 185, 63] : List UInt8) = _; decide +kernel) ?_
  refine laid_next (by decide +kernel) (rfl) (by decide +kernel) (rfl) ?_
  refine laid_next (by decide +kernel) (⟨rfl, by decide +kernel⟩) (by decide +kernel) (rfl) ?_
  refine laid_next (by decide +kernel) (word_written (cs := ['o', 'w', 'n']) (by decide +kernel) (by decide +kernel)) (by decide +kernel) (by show ([226, 154, 191] : List UInt8) = _; decide +kernel) ?_
  refine laid_next (by decide +kernel) (word_written (cs := ['q']) (by decide +kernel) (by decide +kernel)) (by decide +kernel) (by show ([113] : List UInt8) = _; decide +kernel) ?_
  refine laid_next (by decide +kernel) (rfl) (by decide +kernel) (rfl) ?_
  trivial

theorem pieces1_relaid : Relaid ukrainian words1 pieces1 [10] := by
  unfold pieces1
  refine relaid_next (word_written (cs := ['☞']) (by decide +kernel) (by decide +kernel)) ?_
  refine relaid_next (word_written (cs := ['a']) (by decide +kernel) (by decide +kernel)) ?_
  refine relaid_next (.inl rfl) ?_
  refine relaid_next (⟨[], [[49], [48, 48, 48]], [53], by decide +kernel, by decide +kernel, .inl rfl, by decide +kernel, by decide +kernel, by decide +kernel, by decide +kernel, by decide +kernel, by decide +kernel⟩) ?_
  refine relaid_next (word_written (cs := ['+']) (by decide +kernel) (by decide +kernel)) ?_
  refine relaid_next (⟨[], [[50]], [], by decide +kernel, by decide +kernel, .inl rfl, by decide +kernel, by decide +kernel, by decide +kernel, by decide +kernel, by decide +kernel, by decide +kernel⟩) ?_
  refine relaid_next (word_written (cs := ['н', 'е', 'г', 'а', 'т', 'и', 'в', 'н', 'и', 'й', '?']) (by decide +kernel) (by decide +kernel)) ?_
  refine relaid_next (rfl) ?_
  refine relaid_next (word_written (cs := ['a']) (by decide +kernel) (by decide +kernel)) ?_
  refine relaid_next (word_written (cs := ['п', 'о', 'с', 'т', 'а', 'в', 'и', 'т', 'и']) (by decide +kernel) (by decide +kernel)) ?_
  refine relaid_next (⟨rfl, by decide +kernel⟩) ?_
  refine relaid_next (rfl) ?_
  refine relaid_next (word_written (cs := ['b']) (by decide +kernel) (by decide +kernel)) ?_
  refine relaid_next (word_written (cs := ['п', 'о', 'с', 'т', 'а', 'в', 'и', 'т', 'и']) (by decide +kernel) (by decide +kernel)) ?_
  refine relaid_next (⟨rfl, by decide +kernel⟩) ?_
  refine relaid_next (⟨[], [[51]], [], by decide +kernel, by decide +kernel, .inl rfl, by decide +kernel, by decide +kernel, by decide +kernel, by decide +kernel, by decide +kernel, by decide +kernel⟩) ?_
  refine relaid_next (word_written (cs := ['у']) (by decide +kernel) (by decide +kernel)) ?_
  refine relaid_next (⟨rfl, by decide +kernel⟩) ?_
  refine relaid_next (⟨by decide +kernel, Nested.byte (by decide +kernel) (by decide +kernel) (Nested.byte (by decide +kernel) (by decide +kernel) (Nested.byte (by decide +kernel) (by decide +kernel) (Nested.byte (by decide +kernel) (by decide +kernel) (Nested.byte (by decide +kernel) (by decide +kernel) (Nested.byte (by decide +kernel) (by decide +kernel) (Nested.byte (by decide +kernel) (by decide +kernel) (Nested.byte (by decide +kernel) (by decide +kernel) (Nested.byte (by decide +kernel) (by decide +kernel) (Nested.byte (by decide +kernel) (by decide +kernel) (Nested.byte (by decide +kernel) (by decide +kernel) (Nested.byte (by decide +kernel) (by decide +kernel) (Nested.nil _))))))))))))⟩) ?_
  refine relaid_next (rfl) ?_
  refine relaid_next (word_written (cs := ['у']) (by decide +kernel) (by decide +kernel)) ?_
  refine relaid_next (⟨rfl, by decide +kernel⟩) ?_
  refine relaid_next (rfl) ?_
  refine relaid_next (⟨rfl, by decide +kernel⟩) ?_
  refine relaid_next (word_written (cs := ['x']) (by decide +kernel) (by decide +kernel)) ?_
  refine relaid_next (word_written (cs := ['x']) (by decide +kernel) (by decide +kernel)) ?_
  refine relaid_next (word_written (cs := ['f', 'o', 'o']) (by decide +kernel) (by decide +kernel)) ?_
  refine relaid_next (⟨rfl, by decide +kernel⟩) ?_
  refine relaid_next (⟨[], [[52]], [], by decide +kernel, by decide +kernel, .inl rfl, by decide +kernel, by decide +kernel, by decide +kernel, by decide +kernel, by decide +kernel, by decide +kernel⟩) ?_
  refine relaid_next (rfl) ?_
  refine relaid_next (rfl) ?_
  refine relaid_next (rfl) ?_
  refine relaid_next (word_written (cs := ['н', 'е', 'г', 'а', 'т', 'и', 'в', 'н', 'и', 'й', '?']) (by decide +kernel) (by decide +kernel)) ?_
  refine relaid_next (rfl) ?_
  refine relaid_next (⟨rfl, by decide +kernel⟩) ?_
  refine relaid_next (word_written (cs := ['⚿']) (by decide +kernel) (by decide +kernel)) ?_
  refine relaid_next (word_written (cs := ['q']) (by decide +kernel) (by decide +kernel)) ?_
  refine relaid_next (rfl) ?_
  trivial

/-- Its tree. -/
def tree1 : List Node :=
  [.assign (.ref 2 [97]) (.msg (.num [49, 48, 48, 48, 46, 53]) [.bin [43] (.msg (.num [50]) [.una [110, 101, 103, 97, 116, 105, 118, 101, 63]])]),
   .msg (.ref 0 [97]) [.kw [[112, 117, 116], [97, 116]]
      [.nested (.msg (.ref 0 [98]) [.kw [[112, 117, 116], [97, 116]] [.num [51], .str [104, 105]]]),
       .block [[120]] [.msg (.ref 0 [120]) [.kw [[102, 111, 111]] [.num [52]]]]], .una [110, 101, 103, 97, 116, 105, 118, 101, 63]],
   .ret (.ref 1 [113])]

theorem lines1_covers : Covers english ukrainian lines1 where
  plain := plains_of (by decide +kernel)
  notes := by decide +kernel
  last := ⟨_, rfl, by decide⟩
  sign := ⟨_, rfl, rfl⟩
  balanced := by decide +kernel
  symbols := by decide +kernel
  dec := ⟨_, rfl, rfl, rfl⟩
  tho := ⟨_, rfl, rfl, rfl⟩

theorem lines1_matched : ∀ ps ∈ namesOf tree1, Matched 58 58 lines1 ps := by
  have h : namesOf tree1 = [[[112, 117, 116], [97, 116]], [[112, 117, 116], [97, 116]], [[102, 111, 111]]] := by decide +kernel
  rw [h]
  have h1 : Matched 58 58 lines1 [[112, 117, 116], [97, 116]] :=
    ⟨by decide +kernel, .inl ⟨[[208, 191, 208, 190, 209, 129, 209, 130, 208, 176, 208, 178, 208, 184, 209, 130, 208, 184], [209, 131]], by decide +kernel, rfl, by decide +kernel⟩⟩
  intro ps hps
  simp only [List.mem_cons, List.not_mem_nil, or_false] at hps
  rcases hps with rfl | rfl | rfl
  · exact h1
  · exact h1
  · exact ⟨by decide +kernel, .inr ⟨by decide +kernel, rfl, by decide +kernel⟩⟩

example : (GoodDict english ∧ GoodDict ukrainian ∧ CalmDict english ∧ GoodSeps english) ∧
    Covers english ukrainian lines1 ∧ (∃ L, load english.param (dictFile lines1) = .ok L) ∧
    gramStmts english tree1 = true ∧ gramStmts ukrainian (trNodes words1 tree1) = true ∧
    (inDict 116 lines1 english.my = some ukrainian.my ∧ inDict 116 lines1 english.var = some ukrainian.var) ∧
    (∀ ps ∈ namesOf tree1, Matched english.param ukrainian.param lines1 ps) ∧
    pieces1.map Piece.cell = cellStmts english words1 tree1 ∧ Laid english ukrainian words1 pieces1 [10] ∧
    Relaid ukrainian words1 pieces1 [10] ∧ trNodes words1 tree1 ≠ tree1 :=
  ⟨by decide +kernel, lines1_covers,
    (Verif.Props.Trans.C38_load 58 lines1 lines1_covers.plain lines1_covers.notes).1 ⟨by decide +kernel, by decide +kernel⟩,
    by decide +kernel, by decide +kernel, by decide +kernel, lines1_matched, by decide +kernel, pieces1_laid, pieces1_relaid,
    by decide +kernel⟩

/-! ## Violations -/

/-- A program of the first language, whose translation does not mean the same. -/
def Garbled (src : List UInt8) : Prop :=
  ∃ L es out, load english.param (dictFile lines1) = .ok L ∧ answer (parse english src) = some (es, false) ∧
    program english L src = .ok out ∧ answer (parse ukrainian out) ≠ some (trNodes words1 es, false)

def garbled (src : List UInt8) : Bool :=
  (load english.param (dictFile lines1)).sat fun L => (program english L src).sat fun out =>
    match answer (parse english src) with
    | some (es, false) => answer (parse ukrainian out) != some (trNodes words1 es, false)
    | _ => false

theorem garbled_of {src : List UInt8} (h : garbled src = true) : Garbled src := by
  obtain ⟨L, h1, h2⟩ := Out.of_sat h
  obtain ⟨out, h3, h4⟩ := Out.of_sat h2
  split at h4
  · next es he => exact ⟨L, es, out, h1, he, h3, by simpa using h4⟩
  · cases h4

/-- `a put: 1.5 at: 2.`: the decimal separator in an argument is taken for the end of the message, which is then translated as a shorter one. -/
theorem C74_violated_fraction : Garbled
    [97, 32, 112, 117, 116, 58, 32, 49, 46, 53, 32, 97, 116, 58, 32, 50, 46, 10] :=
  garbled_of (by decide +kernel)

/-- `x:=3.`: an assignment written without a space is taken for a message. -/
theorem C74_violated_assign : Garbled
    [120, 58, 61, 51, 46, 10] :=
  garbled_of (by decide +kernel)

/-- `a put: 5. 3 at: 2.`: parts of two messages are taken for one message. -/
theorem C74_violated_ended : Garbled
    [97, 32, 112, 117, 116, 58, 32, 53, 46, 32, 51, 32, 97, 116, 58, 32, 50, 46, 10] :=
  garbled_of (by decide +kernel)

/-- `5 .3 foo.`: the gap before the end of a statement is dropped, so that a number follows without a gap. -/
theorem C74_violated_statement : Garbled
    [53, 32, 46, 51, 32, 102, 111, 111, 46, 10] :=
  garbled_of (by decide +kernel)

/-- `a put : 3 at : 4.`: a message with a gap before the sign is not translated. -/
theorem C74_violated_space : Garbled
    [97, 32, 112, 117, 116, 32, 58, 32, 51, 32, 97, 116, 32, 58, 32, 52, 46, 10] :=
  garbled_of (by decide +kernel)

/-- `a put: 3at: 4.`: a part that follows its argument without a gap is repeated. -/
theorem C74_violated_glued : Garbled
    [97, 32, 112, 117, 116, 58, 32, 51, 97, 116, 58, 32, 52, 46, 10] :=
  garbled_of (by decide +kernel)

/-- `a put: 3 #it's: here  ⏎  at: 4.`: words in a comment are taken for parts of the message. -/
theorem C74_violated_comment : Garbled
    [97, 32, 112, 117, 116, 58, 32, 51, 32, 35, 105, 116, 39, 115, 58, 32, 104, 101, 114, 101, 32, 10, 32, 97, 116, 58, 32, 52, 46, 10] :=
  garbled_of (by decide +kernel)

/-- `a put: ['a ['b'] c'] at: 4.`: a text in a text keeps the marks of the first language, which the second does not know. -/
theorem C74_violated_quotes : Garbled
    [97, 32, 112, 117, 116, 58, 32, 91, 39, 97, 32, 91, 39, 98, 39, 93, 32, 99, 39, 93, 32, 97, 116, 58, 32, 52, 46, 10] :=
  garbled_of (by decide +kernel)

/-- `:a.`: the translator reads before the program, in search of the word before the sign. -/
theorem C74_violated_before : ∃ L, load english.param (dictFile lines1) = .ok L ∧ program english L [58, 97, 46, 10] = .ub := by
  obtain ⟨L, h1, h2⟩ := Out.of_sat (o := load english.param (dictFile lines1))
    (p := fun L => (program english L [58, 97, 46, 10]).isUb) (by decide +kernel)
  exact ⟨L, h1, Out.of_isUb h2⟩

/-- A message that is longer than the translator allows ends it, although an interpreter accepts the program. -/
theorem C74_violated_long : ∃ L es src, load english.param (dictFile lines1) = .ok L ∧
    answer (parse english src) = some (es, false) ∧ program english L src = .exit := by
  obtain ⟨L, h1, h2⟩ := Out.of_sat (o := load english.param (dictFile lines1))
    (p := fun L => (program english L ([97, 32] ++ List.replicate 180 120 ++ [58, 32, 51, 46, 10])).isExit) (by decide +kernel)
  exact ⟨L, [.msg (.ref 0 [97]) [.kw [List.replicate 180 120] [.num [51]]]], _, h1, by decide +kernel, Out.of_isExit h2⟩

end Verif.Props.TransProg
