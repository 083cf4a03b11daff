import Verif.Lemmas.Retold
import Verif.Props.Program
import Verif.Props.TransProg

/-!
# C104: a translated program computes the same
-/

namespace Verif.Props.Retold
open Verif (Out)
open Verif.Model.Program
open Verif.Model.Interp (find)
open Verif.Model.Trans (Loaded load)
open Verif.Model.TransProg (program)
open Verif.Spec (Dict Node DLine english dictFile)
open Verif.Spec.Lexer Verif.Spec.Parser Verif.Spec.Retell
open Verif.Spec.Program (Words V Frame Ends fewStmts)
open Verif.Spec.Retold
open Verif.Lemmas.TransProg
open Verif.Props.Parser (word_written)
open Verif.Props.Trans (plains_of)
open Verif.Props.TransProg (ukrainian laid_next relaid_next)
open Verif.Props.Program (Is Distinct gives of_gives)

/-! ## An example: from English to Ukrainian -/

/-- The words of the Ukrainian dictionary, `i18n/uk/dictionary.h`, like `Spec.Program.english`. -/
def ukWords : Words where
  plus := [43]
  minus := [45]
  times := [195, 151]
  star := [42]
  less := [60]
  greater := [62]
  atMost := [226, 137, 164]
  atLeast := [226, 137, 165]
  equal := [61]
  unequal := [226, 137, 160]
  modulo := [208, 188, 208, 190, 208, 180, 209, 131, 208, 187, 209, 140, 58]
  absolute := [208, 176, 208, 177, 209, 129, 208, 190, 208, 187, 209, 142, 209, 130, 208, 189, 208, 184, 208, 185]
  ifTrue := [208, 191, 209, 128, 208, 176, 208, 178, 208, 180, 208, 176, 58]
  ifFalse := [208, 191, 208, 190, 208, 188, 208, 184, 208, 187, 208, 186, 208, 190, 208, 178, 208, 184, 208, 185, 58]
  otherwise := [209, 137, 208, 181, 58]
  stop := [208, 191, 208, 181, 209, 128, 208, 181, 209, 128, 208, 178, 209, 131]
  next := [208, 191, 209, 128, 208, 190, 208, 180, 208, 190, 208, 178, 208, 182, 209, 131, 208, 178, 208, 176, 209, 130, 208, 184]
  not := [208, 189, 209, 150]
  and := [209, 150, 58]
  or := [208, 176, 208, 177, 208, 190, 58]
  start := [208, 177, 209, 150, 208, 179, 208, 176, 209, 130, 208, 184]
  apply := [208, 183, 208, 176, 209, 129, 209, 130, 208, 190, 209, 129, 209, 131, 208, 178, 208, 176, 209, 130, 208, 184, 58]
  applyAnd := [208, 183, 208, 176, 209, 129, 209, 130, 208, 190, 209, 129, 209, 131, 208, 178, 208, 176, 209, 130, 208, 184, 58, 209, 150, 58]
  whileTrue := [208, 191, 208, 190, 208, 186, 208, 184, 58]
  me := [226, 155, 143]
  my := [226, 154, 191]
  task := [209, 134, 208, 181, 208, 185, 226, 128, 137, 208, 177, 208, 187, 208, 190, 208, 186, 226, 128, 137, 208, 186, 208, 190, 208, 180, 209, 131]
  yes := [208, 159, 209, 128, 208, 176, 208, 178, 208, 180, 208, 176]
  no := [208, 159, 208, 190, 208, 188, 208, 184, 208, 187, 208, 186, 208, 190, 208, 178, 208, 184, 208, 185]
  others := [[208, 158, 208, 177, 226, 128, 153, 209, 148, 208, 186, 209, 130], [208, 157, 209, 150, 208, 187], [208, 145, 209, 131, 208, 187, 208, 181, 208, 178, 208, 176], [208, 157, 208, 190, 208, 188, 208, 181, 209, 128], [208, 162, 208, 181, 208, 186, 209, 129, 209, 130], [208, 151, 208, 176, 208, 178, 208, 180, 208, 176, 208, 189, 208, 189, 209, 143]]
  sign := 58

/-- Some lines of a dictionary. -/
def lines2 : List DLine :=
  [⟨116, [46], none, [46]⟩,
   ⟨116, [44], none, [44]⟩,
   ⟨116, [58, 61], none, [226, 137, 148]⟩,
   ⟨116, [58], none, [58]⟩,
   ⟨116, [60, 45], none, [226, 134, 178]⟩,
   ⟨116, [91, 39], none, [226, 128, 152]⟩,
   ⟨116, [39, 93], none, [226, 128, 153]⟩,
   ⟨100, [46], none, [44]⟩,
   ⟨120, [44], none, [46]⟩,
   ⟨116, [62, 62], none, [226, 152, 158]⟩,
   ⟨116, [111, 119, 110], none, [226, 154, 191]⟩,
   ⟨116, [115, 101, 108, 102], none, [226, 155, 143]⟩,
   ⟨116, [115, 117, 109], none, [209, 129, 209, 131, 208, 188, 208, 176]⟩,
   ⟨116, [98, 114, 101, 97, 107], none, [208, 191, 208, 181, 209, 128, 208, 181, 209, 128, 208, 178, 209, 131]⟩,
   ⟨116, [116, 104, 105, 115, 45, 116, 97, 115, 107], none, [209, 134, 208, 181, 208, 185, 226, 128, 137, 208, 177, 208, 187, 208, 190, 208, 186, 226, 128, 137, 208, 186, 208, 190, 208, 180, 209, 131]⟩,
   ⟨116, [84, 114, 117, 101], none, [208, 159, 209, 128, 208, 176, 208, 178, 208, 180, 208, 176]⟩,
   ⟨116, [70, 97, 108, 115, 101], none, [208, 159, 208, 190, 208, 188, 208, 184, 208, 187, 208, 186, 208, 190, 208, 178, 208, 184, 208, 185]⟩,
   ⟨116, [79, 98, 106, 101, 99, 116], none, [208, 158, 208, 177, 226, 128, 153, 209, 148, 208, 186, 209, 130]⟩,
   ⟨116, [78, 111, 110, 101], none, [208, 157, 209, 150, 208, 187]⟩,
   ⟨116, [66, 111, 111, 108, 101, 97, 110], none, [208, 145, 209, 131, 208, 187, 208, 181, 208, 178, 208, 176]⟩,
   ⟨116, [78, 117, 109, 98, 101, 114], none, [208, 157, 208, 190, 208, 188, 208, 181, 209, 128]⟩,
   ⟨116, [84, 101, 120, 116], none, [208, 162, 208, 181, 208, 186, 209, 129, 209, 130]⟩,
   ⟨116, [84, 97, 115, 107], none, [208, 151, 208, 176, 208, 178, 208, 180, 208, 176, 208, 189, 208, 189, 209, 143]⟩,
   ⟨116, [116, 114, 117, 101, 58], none, [208, 191, 209, 128, 208, 176, 208, 178, 208, 180, 208, 176, 58]⟩,
   ⟨116, [97, 112, 112, 108, 121, 58], none, [208, 183, 208, 176, 209, 129, 209, 130, 208, 190, 209, 129, 209, 131, 208, 178, 208, 176, 209, 130, 208, 184, 58]⟩]

/-- The translation they give. -/
def words2 : Say := sayOf 58 58 lines2

/-- The pieces of the program
```
    >> sum := 0.
    {:i
      (i > 4) break.
      sum := sum + i.
    } * 10.
    >> fac := {:n
      >> r := 1.
      (n > 1) true: { r := n * (self apply: n - 1). }.
      <- r.
    }.
    >> x := fac apply: 5.
```
which becomes
```
    ☞ сума ≔ 0.
    { :i
      (i > 4) перерву.
      сума ≔ сума + i.
    } * 10.
    ☞ fac ≔ { :n
      ☞ r ≔ 1.
      (n > 1) правда: { r ≔ n * (⛏ застосувати: n - 1). }. ↲ r.
    }.
    ☞ x ≔ fac застосувати: 5.
``` -/
def pieces2 : List Piece :=
  [⟨[], .word [62, 62], [62, 62], [226, 152, 158]⟩,
   ⟨[32], .word [115, 117, 109], [115, 117, 109], [209, 129, 209, 131, 208, 188, 208, 176]⟩,
   ⟨[32], .assign, [58, 61], [226, 137, 148]⟩,
   ⟨[32], .num false [48], [48], [48]⟩,
   ⟨[], .eol, [46], [46]⟩,
   ⟨[10], .bopen, [123], [123]⟩,
   ⟨[], .param, [58], [58]⟩,
   ⟨[], .word [105], [105], [105]⟩,
   ⟨[10, 32, 32], .popen, [40], [40]⟩,
   ⟨[], .word [105], [105], [105]⟩,
   ⟨[32], .word [62], [62], [62]⟩,
   ⟨[32], .num false [52], [52], [52]⟩,
   ⟨[], .pclose, [41], [41]⟩,
   ⟨[32], .word [98, 114, 101, 97, 107], [98, 114, 101, 97, 107], [208, 191, 208, 181, 209, 128, 208, 181, 209, 128, 208, 178, 209, 131]⟩,
   ⟨[], .eol, [46], [46]⟩,
   ⟨[10, 32, 32], .word [115, 117, 109], [115, 117, 109], [209, 129, 209, 131, 208, 188, 208, 176]⟩,
   ⟨[32], .assign, [58, 61], [226, 137, 148]⟩,
   ⟨[32], .word [115, 117, 109], [115, 117, 109], [209, 129, 209, 131, 208, 188, 208, 176]⟩,
   ⟨[32], .word [43], [43], [43]⟩,
   ⟨[32], .word [105], [105], [105]⟩,
   ⟨[], .eol, [46], [46]⟩,
   ⟨[10], .bclose, [125], [125]⟩,
   ⟨[32], .word [42], [42], [42]⟩,
   ⟨[32], .num false [49, 48], [49, 48], [49, 48]⟩,
   ⟨[], .eol, [46], [46]⟩,
   ⟨[10], .word [62, 62], [62, 62], [226, 152, 158]⟩,
   ⟨[32], .word [102, 97, 99], [102, 97, 99], [102, 97, 99]⟩,
   ⟨[32], .assign, [58, 61], [226, 137, 148]⟩,
   ⟨[32], .bopen, [123], [123]⟩,
   ⟨[], .param, [58], [58]⟩,
   ⟨[], .word [110], [110], [110]⟩,
   ⟨[10, 32, 32], .word [62, 62], [62, 62], [226, 152, 158]⟩,
   ⟨[32], .word [114], [114], [114]⟩,
   ⟨[32], .assign, [58, 61], [226, 137, 148]⟩,
   ⟨[32], .num false [49], [49], [49]⟩,
   ⟨[], .eol, [46], [46]⟩,
   ⟨[10, 32, 32], .popen, [40], [40]⟩,
   ⟨[], .word [110], [110], [110]⟩,
   ⟨[32], .word [62], [62], [62]⟩,
   ⟨[32], .num false [49], [49], [49]⟩,
   ⟨[], .pclose, [41], [41]⟩,
   ⟨[32], .key true [116, 114, 117, 101] [208, 191, 209, 128, 208, 176, 208, 178, 208, 180, 208, 176], [116, 114, 117, 101], [208, 191, 209, 128, 208, 176, 208, 178, 208, 180, 208, 176]⟩,
   ⟨[], .sign, [58], [58]⟩,
   ⟨[32], .bopen, [123], [123]⟩,
   ⟨[32], .word [114], [114], [114]⟩,
   ⟨[32], .assign, [58, 61], [226, 137, 148]⟩,
   ⟨[32], .word [110], [110], [110]⟩,
   ⟨[32], .word [42], [42], [42]⟩,
   ⟨[32], .popen, [40], [40]⟩,
   ⟨[], .word [115, 101, 108, 102], [115, 101, 108, 102], [226, 155, 143]⟩,
   ⟨[32], .key true [97, 112, 112, 108, 121] [208, 183, 208, 176, 209, 129, 209, 130, 208, 190, 209, 129, 209, 131, 208, 178, 208, 176, 209, 130, 208, 184], [97, 112, 112, 108, 121], [208, 183, 208, 176, 209, 129, 209, 130, 208, 190, 209, 129, 209, 131, 208, 178, 208, 176, 209, 130, 208, 184]⟩,
   ⟨[], .sign, [58], [58]⟩,
   ⟨[32], .word [110], [110], [110]⟩,
   ⟨[32], .word [45], [45], [45]⟩,
   ⟨[32], .num true [49], [49], [49]⟩,
   ⟨[], .pclose, [41], [41]⟩,
   ⟨[], .eol, [46], [46]⟩,
   ⟨[32], .bclose, [125], [125]⟩,
   ⟨[], .eol, [46], [46]⟩,
   ⟨[10, 32, 32], .ret, [60, 45], [226, 134, 178]⟩,
   ⟨[32], .word [114], [114], [114]⟩,
   ⟨[], .eol, [46], [46]⟩,
   ⟨[10], .bclose, [125], [125]⟩,
   ⟨[], .eol, [46], [46]⟩,
   ⟨[10], .word [62, 62], [62, 62], [226, 152, 158]⟩,
   ⟨[32], .word [120], [120], [120]⟩,
   ⟨[32], .assign, [58, 61], [226, 137, 148]⟩,
   ⟨[32], .word [102, 97, 99], [102, 97, 99], [102, 97, 99]⟩,
   ⟨[32], .key true [97, 112, 112, 108, 121] [208, 183, 208, 176, 209, 129, 209, 130, 208, 190, 209, 129, 209, 131, 208, 178, 208, 176, 209, 130, 208, 184], [97, 112, 112, 108, 121], [208, 183, 208, 176, 209, 129, 209, 130, 208, 190, 209, 129, 209, 131, 208, 178, 208, 176, 209, 130, 208, 184]⟩,
   ⟨[], .sign, [58], [58]⟩,
   ⟨[32], .num true [53], [53], [53]⟩,
   ⟨[], .eol, [46], [46]⟩]

theorem pieces2_laid : Laid english ukrainian words2 pieces2 [10] := by
  unfold pieces2
  refine laid_next (by decide +kernel) (word_written (cs := ['>', '>']) (by decide +kernel) (by decide +kernel)) (by decide +kernel) (by show ([226, 152, 158] : List UInt8) = _; decide +kernel) ?_
  refine laid_next (by decide +kernel) (word_written (cs := ['s', 'u', 'm']) (by decide +kernel) (by decide +kernel)) (by decide +kernel) (by show ([209, 129, 209, 131, 208, 188, 208, 176] : List UInt8) = _; decide +kernel) ?_
  refine laid_next (by decide +kernel) (.inl rfl) (by decide +kernel) (rfl) ?_
  refine laid_next (by decide +kernel) (⟨[], [[48]], [], by decide +kernel, by decide +kernel, .inl rfl, by decide +kernel, by decide +kernel, by decide +kernel, by decide +kernel, by decide +kernel, by decide +kernel⟩) (by decide +kernel) (⟨[], [[48]], [], .inl rfl, by decide +kernel, by decide +kernel, by decide +kernel, by decide +kernel⟩) ?_
  refine laid_next (by decide +kernel) (rfl) (by decide +kernel) (rfl) ?_
  refine laid_next (by decide +kernel) (rfl) (by decide +kernel) (rfl) ?_
  refine laid_next (by decide +kernel) (⟨rfl, by decide +kernel⟩) (by decide +kernel) (rfl) ?_
  refine laid_next (by decide +kernel) (word_written (cs := ['i']) (by decide +kernel) (by decide +kernel)) (by decide +kernel) (by show ([105] : List UInt8) = _; decide +kernel) ?_
  refine laid_next (by decide +kernel) (rfl) (by decide +kernel) (rfl) ?_
  refine laid_next (by decide +kernel) (word_written (cs := ['i']) (by decide +kernel) (by decide +kernel)) (by decide +kernel) (by show ([105] : List UInt8) = _; decide +kernel) ?_
  refine laid_next (by decide +kernel) (word_written (cs := ['>']) (by decide +kernel) (by decide +kernel)) (by decide +kernel) (by show ([62] : List UInt8) = _; decide +kernel) ?_
  refine laid_next (by decide +kernel) (⟨[], [[52]], [], by decide +kernel, by decide +kernel, .inl rfl, by decide +kernel, by decide +kernel, by decide +kernel, by decide +kernel, by decide +kernel, by decide +kernel⟩) (by decide +kernel) (⟨[], [[52]], [], .inl rfl, by decide +kernel, by decide +kernel, by decide +kernel, by decide +kernel⟩) ?_
  refine laid_next (by decide +kernel) (rfl) (by decide +kernel) (rfl) ?_
  refine laid_next (by decide +kernel) (word_written (cs := ['b', 'r', 'e', 'a', 'k']) (by decide +kernel) (by decide +kernel)) (by decide +kernel) (by show ([208, 191, 208, 181, 209, 128, 208, 181, 209, 128, 208, 178, 209, 131] : List UInt8) = _; decide +kernel) ?_
  refine laid_next (by decide +kernel) (rfl) (by decide +kernel) (rfl) ?_
  refine laid_next (by decide +kernel) (word_written (cs := ['s', 'u', 'm']) (by decide +kernel) (by decide +kernel)) (by decide +kernel) (by show ([209, 129, 209, 131, 208, 188, 208, 176] : List UInt8) = _; decide +kernel) ?_
  refine laid_next (by decide +kernel) (.inl rfl) (by decide +kernel) (rfl) ?_
  refine laid_next (by decide +kernel) (word_written (cs := ['s', 'u', 'm']) (by decide +kernel) (by decide +kernel)) (by decide +kernel) (by show ([209, 129, 209, 131, 208, 188, 208, 176] : List UInt8) = _; decide +kernel) ?_
  refine laid_next (by decide +kernel) (word_written (cs := ['+']) (by decide +kernel) (by decide +kernel)) (by decide +kernel) (by show ([43] : List UInt8) = _; decide +kernel) ?_
  refine laid_next (by decide +kernel) (word_written (cs := ['i']) (by decide +kernel) (by decide +kernel)) (by decide +kernel) (by show ([105] : List UInt8) = _; decide +kernel) ?_
  refine laid_next (by decide +kernel) (rfl) (by decide +kernel) (rfl) ?_
  refine laid_next (by decide +kernel) (rfl) (by decide +kernel) (rfl) ?_
  refine laid_next (by decide +kernel) (word_written (cs := ['*']) (by decide +kernel) (by decide +kernel)) (by decide +kernel) (by show ([42] : List UInt8) = _; decide +kernel) ?_
  refine laid_next (by decide +kernel) (⟨[], [[49, 48]], [], by decide +kernel, by decide +kernel, .inl rfl, by decide +kernel, by decide +kernel, by decide +kernel, by decide +kernel, by decide +kernel, by decide +kernel⟩) (by decide +kernel) (⟨[], [[49, 48]], [], .inl rfl, by decide +kernel, by decide +kernel, by decide +kernel, by decide +kernel⟩) ?_
  refine laid_next (by decide +kernel) (rfl) (by decide +kernel) (rfl) ?_
  refine laid_next (by decide +kernel) (word_written (cs := ['>', '>']) (by decide +kernel) (by decide +kernel)) (by decide +kernel) (by show ([226, 152, 158] : List UInt8) = _; decide +kernel) ?_
  refine laid_next (by decide +kernel) (word_written (cs := ['f', 'a', 'c']) (by decide +kernel) (by decide +kernel)) (by decide +kernel) (by show ([102, 97, 99] : List UInt8) = _; decide +kernel) ?_
  refine laid_next (by decide +kernel) (.inl rfl) (by decide +kernel) (rfl) ?_
  refine laid_next (by decide +kernel) (rfl) (by decide +kernel) (rfl) ?_
  refine laid_next (by decide +kernel) (⟨rfl, by decide +kernel⟩) (by decide +kernel) (rfl) ?_
  refine laid_next (by decide +kernel) (word_written (cs := ['n']) (by decide +kernel) (by decide +kernel)) (by decide +kernel) (by show ([110] : List UInt8) = _; decide +kernel) ?_
  refine laid_next (by decide +kernel) (word_written (cs := ['>', '>']) (by decide +kernel) (by decide +kernel)) (by decide +kernel) (by show ([226, 152, 158] : List UInt8) = _; decide +kernel) ?_
  refine laid_next (by decide +kernel) (word_written (cs := ['r']) (by decide +kernel) (by decide +kernel)) (by decide +kernel) (by show ([114] : List UInt8) = _; decide +kernel) ?_
  refine laid_next (by decide +kernel) (.inl rfl) (by decide +kernel) (rfl) ?_
  refine laid_next (by decide +kernel) (⟨[], [[49]], [], by decide +kernel, by decide +kernel, .inl rfl, by decide +kernel, by decide +kernel, by decide +kernel, by decide +kernel, by decide +kernel, by decide +kernel⟩) (by decide +kernel) (⟨[], [[49]], [], .inl rfl, by decide +kernel, by decide +kernel, by decide +kernel, by decide +kernel⟩) ?_
  refine laid_next (by decide +kernel) (rfl) (by decide +kernel) (rfl) ?_
  refine laid_next (by decide +kernel) (rfl) (by decide +kernel) (rfl) ?_
  refine laid_next (by decide +kernel) (word_written (cs := ['n']) (by decide +kernel) (by decide +kernel)) (by decide +kernel) (by show ([110] : List UInt8) = _; decide +kernel) ?_
  refine laid_next (by decide +kernel) (word_written (cs := ['>']) (by decide +kernel) (by decide +kernel)) (by decide +kernel) (by show ([62] : List UInt8) = _; decide +kernel) ?_
  refine laid_next (by decide +kernel) (⟨[], [[49]], [], by decide +kernel, by decide +kernel, .inl rfl, by decide +kernel, by decide +kernel, by decide +kernel, by decide +kernel, by decide +kernel, by decide +kernel⟩) (by decide +kernel) (⟨[], [[49]], [], .inl rfl, by decide +kernel, by decide +kernel, by decide +kernel, by decide +kernel⟩) ?_
  refine laid_next (by decide +kernel) (rfl) (by decide +kernel) (rfl) ?_
  refine laid_next (by decide +kernel) (word_written (cs := ['t', 'r', 'u', 'e']) (by decide +kernel) (by decide +kernel)) (by decide +kernel) (by show ([208, 191, 209, 128, 208, 176, 208, 178, 208, 180, 208, 176] : List UInt8) = _; decide +kernel) ?_
  refine laid_next (by decide +kernel) (⟨rfl, by decide +kernel⟩) (by decide +kernel) (rfl) ?_
  refine laid_next (by decide +kernel) (rfl) (by decide +kernel) (rfl) ?_
  refine laid_next (by decide +kernel) (word_written (cs := ['r']) (by decide +kernel) (by decide +kernel)) (by decide +kernel) (by show ([114] : List UInt8) = _; decide +kernel) ?_
  refine laid_next (by decide +kernel) (.inl rfl) (by decide +kernel) (rfl) ?_
  refine laid_next (by decide +kernel) (word_written (cs := ['n']) (by decide +kernel) (by decide +kernel)) (by decide +kernel) (by show ([110] : List UInt8) = _; decide +kernel) ?_
  refine laid_next (by decide +kernel) (word_written (cs := ['*']) (by decide +kernel) (by decide +kernel)) (by decide +kernel) (by show ([42] : List UInt8) = _; decide +kernel) ?_
  refine laid_next (by decide +kernel) (rfl) (by decide +kernel) (rfl) ?_
  refine laid_next (by decide +kernel) (word_written (cs := ['s', 'e', 'l', 'f']) (by decide +kernel) (by decide +kernel)) (by decide +kernel) (by show ([226, 155, 143] : List UInt8) = _; decide +kernel) ?_
  refine laid_next (by decide +kernel) (word_written (cs := ['a', 'p', 'p', 'l', 'y']) (by decide +kernel) (by decide +kernel)) (by decide +kernel) (by show ([208, 183, 208, 176, 209, 129, 209, 130, 208, 190, 209, 129, 209, 131, 208, 178, 208, 176, 209, 130, 208, 184] : List UInt8) = _; decide +kernel) ?_
  refine laid_next (by decide +kernel) (⟨rfl, by decide +kernel⟩) (by decide +kernel) (rfl) ?_
  refine laid_next (by decide +kernel) (word_written (cs := ['n']) (by decide +kernel) (by decide +kernel)) (by decide +kernel) (by show ([110] : List UInt8) = _; decide +kernel) ?_
  refine laid_next (by decide +kernel) (word_written (cs := ['-']) (by decide +kernel) (by decide +kernel)) (by decide +kernel) (by show ([45] : List UInt8) = _; decide +kernel) ?_
  refine laid_next (by decide +kernel) (⟨[], [[49]], [], by decide +kernel, by decide +kernel, .inl rfl, by decide +kernel, by decide +kernel, by decide +kernel, by decide +kernel, by decide +kernel, by decide +kernel⟩) (by decide +kernel) (⟨[], [[49]], [], .inl rfl, by decide +kernel, by decide +kernel, by decide +kernel, by decide +kernel⟩) ?_
  refine laid_next (by decide +kernel) (rfl) (by decide +kernel) (rfl) ?_
  refine laid_next (by decide +kernel) (rfl) (by decide +kernel) (rfl) ?_
  refine laid_next (by decide +kernel) (rfl) (by decide +kernel) (rfl) ?_
  refine laid_next (by decide +kernel) (rfl) (by decide +kernel) (rfl) ?_
  refine laid_next (by decide +kernel) (⟨rfl, by decide +kernel⟩) (by decide +kernel) (rfl) ?_
  refine laid_next (by decide +kernel) (word_written (cs := ['r']) (by decide +kernel) (by decide +kernel)) (by decide +kernel) (by show ([114] : List UInt8) = _; decide +kernel) ?_
  refine laid_next (by decide +kernel) (rfl) (by decide +kernel) (rfl) ?_
  refine laid_next (by decide +kernel) (rfl) (by decide +kernel) (rfl) ?_
  refine laid_next (by decide +kernel) (rfl) (by decide +kernel) (rfl) ?_
  refine laid_next (by decide +kernel) (word_written (cs := ['>', '>']) (by decide +kernel) (by decide +kernel)) (by decide +kernel) (by show ([226, 152, 158] : List UInt8) = _; decide +kernel) ?_
  refine laid_next (by decide +kernel) (word_written (cs := ['x']) (by decide +kernel) (by decide +kernel)) (by decide +kernel) (by show ([120] : List UInt8) = _; decide +kernel) ?_
  refine laid_next (by decide +kernel) (.inl rfl) (by decide +kernel) (rfl) ?_
  refine laid_next (by decide +kernel) (word_written (cs := ['f', 'a', 'c']) (by decide +kernel) (by decide +kernel)) (by decide +kernel) (by show ([102, 97, 99] : List UInt8) = _; decide +kernel) ?_
  refine laid_next (by decide +kernel) (word_written (cs := ['a', 'p', 'p', 'l', 'y']) (by decide +kernel) (by decide +kernel)) (by decide +kernel) (by show ([208, 183, 208, 176, 209, 129, 209, 130, 208, 190, 209, 129, 209, 131, 208, 178, 208, 176, 209, 130, 208, 184] : List UInt8) = _; decide +kernel) ?_
  refine laid_next (by decide +kernel) (⟨rfl, by decide +kernel⟩) (by decide +kernel) (rfl) ?_
  refine laid_next (by decide +kernel) (⟨[], [[53]], [], by decide +kernel, by decide +kernel, .inl rfl, by decide +kernel, by decide +kernel, by decide +kernel, by decide +kernel, by decide +kernel, by decide +kernel⟩) (by decide +kernel) (⟨[], [[53]], [], .inl rfl, by decide +kernel, by decide +kernel, by decide +kernel, by decide +kernel⟩) ?_
  refine laid_next (by decide +kernel) (rfl) (by decide +kernel) (rfl) ?_
  trivial

theorem pieces2_relaid : Relaid ukrainian words2 pieces2 [10] := by
  unfold pieces2
  refine relaid_next (word_written (cs := ['☞']) (by decide +kernel) (by decide +kernel)) ?_
  refine relaid_next (word_written (cs := ['с', 'у', 'м', 'а']) (by decide +kernel) (by decide +kernel)) ?_
  refine relaid_next (.inl rfl) ?_
  refine relaid_next (⟨[], [[48]], [], by decide +kernel, by decide +kernel, .inl rfl, by decide +kernel, by decide +kernel, by decide +kernel, by decide +kernel, by decide +kernel, by decide +kernel⟩) ?_
  refine relaid_next (rfl) ?_
  refine relaid_next (rfl) ?_
  refine relaid_next (⟨rfl, by decide +kernel⟩) ?_
  refine relaid_next (word_written (cs := ['i']) (by decide +kernel) (by decide +kernel)) ?_
  refine relaid_next (rfl) ?_
  refine relaid_next (word_written (cs := ['i']) (by decide +kernel) (by decide +kernel)) ?_
  refine relaid_next (word_written (cs := ['>']) (by decide +kernel) (by decide +kernel)) ?_
  refine relaid_next (⟨[], [[52]], [], by decide +kernel, by decide +kernel, .inl rfl, by decide +kernel, by decide +kernel, by decide +kernel, by decide +kernel, by decide +kernel, by decide +kernel⟩) ?_
  refine relaid_next (rfl) ?_
  refine relaid_next (word_written (cs := ['п', 'е', 'р', 'е', 'р', 'в', 'у']) (by decide +kernel) (by decide +kernel)) ?_
  refine relaid_next (rfl) ?_
  refine relaid_next (word_written (cs := ['с', 'у', 'м', 'а']) (by decide +kernel) (by decide +kernel)) ?_
  refine relaid_next (.inl rfl) ?_
  refine relaid_next (word_written (cs := ['с', 'у', 'м', 'а']) (by decide +kernel) (by decide +kernel)) ?_
  refine relaid_next (word_written (cs := ['+']) (by decide +kernel) (by decide +kernel)) ?_
  refine relaid_next (word_written (cs := ['i']) (by decide +kernel) (by decide +kernel)) ?_
  refine relaid_next (rfl) ?_
  refine relaid_next (rfl) ?_
  refine relaid_next (word_written (cs := ['*']) (by decide +kernel) (by decide +kernel)) ?_
  refine relaid_next (⟨[], [[49, 48]], [], by decide +kernel, by decide +kernel, .inl rfl, by decide +kernel, by decide +kernel, by decide +kernel, by decide +kernel, by decide +kernel, by decide +kernel⟩) ?_
  refine relaid_next (rfl) ?_
  refine relaid_next (word_written (cs := ['☞']) (by decide +kernel) (by decide +kernel)) ?_
  refine relaid_next (word_written (cs := ['f', 'a', 'c']) (by decide +kernel) (by decide +kernel)) ?_
  refine relaid_next (.inl rfl) ?_
  refine relaid_next (rfl) ?_
  refine relaid_next (⟨rfl, by decide +kernel⟩) ?_
  refine relaid_next (word_written (cs := ['n']) (by decide +kernel) (by decide +kernel)) ?_
  refine relaid_next (word_written (cs := ['☞']) (by decide +kernel) (by decide +kernel)) ?_
  refine relaid_next (word_written (cs := ['r']) (by decide +kernel) (by decide +kernel)) ?_
  refine relaid_next (.inl rfl) ?_
  refine relaid_next (⟨[], [[49]], [], by decide +kernel, by decide +kernel, .inl rfl, by decide +kernel, by decide +kernel, by decide +kernel, by decide +kernel, by decide +kernel, by decide +kernel⟩) ?_
  refine relaid_next (rfl) ?_
  refine relaid_next (rfl) ?_
  refine relaid_next (word_written (cs := ['n']) (by decide +kernel) (by decide +kernel)) ?_
  refine relaid_next (word_written (cs := ['>']) (by decide +kernel) (by decide +kernel)) ?_
  refine relaid_next (⟨[], [[49]], [], by decide +kernel, by decide +kernel, .inl rfl, by decide +kernel, by decide +kernel, by decide +kernel, by decide +kernel, by decide +kernel, by decide +kernel⟩) ?_
  refine relaid_next (rfl) ?_
  refine relaid_next (word_written (cs := ['п', 'р', 'а', 'в', 'д', 'а']) (by decide +kernel) (by decide +kernel)) ?_
  refine relaid_next (⟨rfl, by decide +kernel⟩) ?_
  refine relaid_next (rfl) ?_
  refine relaid_next (word_written (cs := ['r']) (by decide +kernel) (by decide +kernel)) ?_
  refine relaid_next (.inl rfl) ?_
  refine relaid_next (word_written (cs := ['n']) (by decide +kernel) (by decide +kernel)) ?_
  refine relaid_next (word_written (cs := ['*']) (by decide +kernel) (by decide +kernel)) ?_
  refine relaid_next (rfl) ?_
  refine relaid_next (word_written (cs := ['⛏']) (by decide +kernel) (by decide +kernel)) ?_
  refine relaid_next (word_written (cs := ['з', 'а', 'с', 'т', 'о', 'с', 'у', 'в', 'а', 'т', 'и']) (by decide +kernel) (by decide +kernel)) ?_
  refine relaid_next (⟨rfl, by decide +kernel⟩) ?_
  refine relaid_next (word_written (cs := ['n']) (by decide +kernel) (by decide +kernel)) ?_
  refine relaid_next (word_written (cs := ['-']) (by decide +kernel) (by decide +kernel)) ?_
  refine relaid_next (⟨[], [[49]], [], by decide +kernel, by decide +kernel, .inl rfl, by decide +kernel, by decide +kernel, by decide +kernel, by decide +kernel, by decide +kernel, by decide +kernel⟩) ?_
  refine relaid_next (rfl) ?_
  refine relaid_next (rfl) ?_
  refine relaid_next (rfl) ?_
  refine relaid_next (rfl) ?_
  refine relaid_next (⟨rfl, by decide +kernel⟩) ?_
  refine relaid_next (word_written (cs := ['r']) (by decide +kernel) (by decide +kernel)) ?_
  refine relaid_next (rfl) ?_
  refine relaid_next (rfl) ?_
  refine relaid_next (rfl) ?_
  refine relaid_next (word_written (cs := ['☞']) (by decide +kernel) (by decide +kernel)) ?_
  refine relaid_next (word_written (cs := ['x']) (by decide +kernel) (by decide +kernel)) ?_
  refine relaid_next (.inl rfl) ?_
  refine relaid_next (word_written (cs := ['f', 'a', 'c']) (by decide +kernel) (by decide +kernel)) ?_
  refine relaid_next (word_written (cs := ['з', 'а', 'с', 'т', 'о', 'с', 'у', 'в', 'а', 'т', 'и']) (by decide +kernel) (by decide +kernel)) ?_
  refine relaid_next (⟨rfl, by decide +kernel⟩) ?_
  refine relaid_next (⟨[], [[53]], [], by decide +kernel, by decide +kernel, .inl rfl, by decide +kernel, by decide +kernel, by decide +kernel, by decide +kernel, by decide +kernel, by decide +kernel⟩) ?_
  refine relaid_next (rfl) ?_
  trivial

/-- Its tree. -/
def tree2 : List Node :=
  [.assign (.ref 2 [115, 117, 109]) (.num [48]),
   .msg (.block [[105]] [.msg (.nested (.msg (.ref 0 [105]) [.bin [62] (.num [52])])) [.una [98, 114, 101, 97, 107]],
     .assign (.ref 0 [115, 117, 109]) (.msg (.ref 0 [115, 117, 109]) [.bin [43] (.ref 0 [105])])]) [.bin [42] (.num [49, 48])],
   .assign (.ref 2 [102, 97, 99]) (.block [[110]] [.assign (.ref 2 [114]) (.num [49]),
     .msg (.nested (.msg (.ref 0 [110]) [.bin [62] (.num [49])])) [.kw [[116, 114, 117, 101]] [.block [] [
       .assign (.ref 0 [114]) (.msg (.ref 0 [110]) [.bin [42] (.nested (.msg (.ref 0 [115, 101, 108, 102]) [.kw [[97, 112, 112, 108, 121]]
         [.msg (.ref 0 [110]) [.bin [45] (.num [49])]]]))])]]],
     .ret (.ref 0 [114])]),
   .assign (.ref 2 [120]) (.msg (.ref 0 [102, 97, 99]) [.kw [[97, 112, 112, 108, 121]] [.num [53]]])]

/-- The names, and the messages in it. -/
def names2 : List (List UInt8) :=
  [[115, 117, 109], [105], [102, 97, 99], [110], [114], [120], [115, 101, 108, 102], [111, 119, 110], [116, 104, 105, 115, 45, 116, 97, 115, 107], [84, 114, 117, 101], [70, 97, 108, 115, 101], [79, 98, 106, 101, 99, 116], [78, 111, 110, 101], [66, 111, 111, 108, 101, 97, 110], [78, 117, 109, 98, 101, 114], [84, 101, 120, 116], [84, 97, 115, 107]]
def messages2 : List (List UInt8) := [[98, 114, 101, 97, 107], [62], [43], [42], [45]]
def parts2 : List (List (List UInt8)) := [[[116, 114, 117, 101]], [[97, 112, 112, 108, 121]]]

theorem lines2_covers : Covers english ukrainian lines2 where
  plain := plains_of (by decide +kernel)
  notes := by decide +kernel
  last := ⟨_, rfl, by decide⟩
  sign := ⟨_, rfl, rfl⟩
  balanced := by decide +kernel
  symbols := by decide +kernel
  dec := ⟨_, rfl, rfl, rfl⟩
  tho := ⟨_, rfl, rfl, rfl⟩

theorem lines2_matched : ∀ ps ∈ namesOf tree2, Matched 58 58 lines2 ps := by
  have h : namesOf tree2 = [[[116, 114, 117, 101]], [[97, 112, 112, 108, 121]], [[97, 112, 112, 108, 121]]] := by decide +kernel
  rw [h]
  have h1 : Matched 58 58 lines2 [[97, 112, 112, 108, 121]] := ⟨by decide +kernel, .inl ⟨[[208, 183, 208, 176, 209, 129, 209, 130, 208, 190, 209, 129, 209, 131, 208, 178, 208, 176, 209, 130, 208, 184]], by decide +kernel, rfl, by decide +kernel⟩⟩
  intro ps hps
  simp only [List.mem_cons, List.not_mem_nil, or_false] at hps
  rcases hps with rfl | rfl | rfl
  · exact ⟨by decide +kernel, .inl ⟨[[208, 191, 209, 128, 208, 176, 208, 178, 208, 180, 208, 176]], by decide +kernel, rfl, by decide +kernel⟩⟩
  · exact h1
  · exact h1

theorem faithful2 : Faithful words2 Spec.Program.english ukWords names2 messages2 parts2 where
  apart := by decide +kernel
  names := by decide +kernel
  others := by decide +kernel
  words := by decide +kernel
  parts := by decide +kernel

/-- At the end of the example `sum` is 10 and `x` is 120. -/
theorem tree2_gives : gives Spec.Program.english 60 tree2 [115, 117, 109] 10 = true ∧ gives Spec.Program.english 60 tree2 [120] 120 = true := by
  decide +kernel

/-! ## The theorem -/

/-- C104, part: if a program of numbers, conditions, loops and functions is laid out regularly and has a meaning, and the dictionary keeps its
names apart and translates the words with a meaning (and no others) by the words with the same meaning, then the translator translates the
program, both programs run to their end without an error, and each variable of the translation has the value of the variable of the
original: the same number, the same truth value, the translated block. For programs with texts, objects and
sequences see `C104_objects_partial`. Missing: programs with comments, and with other layouts (see C74). -/
theorem C104_partial (d d' : Dict) (hd : GoodDict d) (hd' : GoodDict d') (hk : CalmDict d) (hs : GoodSeps d)
    (ls : List DLine) (hc : Covers d d' ls) (L : Loaded) (hL : load d.param (dictFile ls) = .ok L) (es : List Node)
    (hg : gramStmts d es = true) (hg' : gramStmts d' (trNodes (sayOf d.param d'.param ls) es) = true)
    (hmy : inDict 116 ls d.my = some d'.my) (hvar : inDict 116 ls d.var = some d'.var)
    (hm : ∀ ps ∈ namesOf es, Matched d.param d'.param ls ps) (pieces : List Piece) (tail : List UInt8)
    (hp : pieces.map Piece.cell = cellStmts d (sayOf d.param d'.param ls) es)
    (hl : Laid d d' (sayOf d.param d'.param ls) pieces tail) (hl' : Relaid d' (sayOf d.param d'.param ls) pieces tail)
    (ht : ∀ c ∈ tail, blank c = true)
    (W W' : Words) (hW : Distinct W) (hW' : Distinct W') (hsg : W.sign = d.param) (hsg' : W'.sign = d'.param)
    (hf : fewStmts es = true) (N Q : List (List UInt8)) (K : List (List (List UInt8))) (hu : usesAll N Q K es = true)
    (hF : Faithful (sayOf d.param d'.param ls) W W' N Q K) (f : Frame) (he : Ends W es f) :
    ∃ out s r s' r' m, program d L (source pieces tail) = .ok out ∧
      (∀ n, m ≤ n → main d (intern W) W n (source pieces tail) (start (intern W) W) = .ok (s, r)) ∧
      (∀ n, m ≤ n → main d' (intern W') W' n out (start (intern W') W') = .ok (s', r')) ∧
      s.flow = none ∧ s'.flow = none ∧
      ∀ x ∈ N, match f x with
        | some v => (∃ o, find s (intern W x) = (s, o) ∧ Is (intern W) W s o v) ∧
            ∃ o, find s' (intern W' ((sayOf d.param d'.param ls).word x)) = (s', o) ∧
              Is (intern W') W' s' o (retold (sayOf d.param d'.param ls) v)
        | none => (find s (intern W x)).1.flow.isSome = true ∧
            (find s' (intern W' ((sayOf d.param d'.param ls).word x))).1.flow.isSome = true := by
  have Kn := knows hs hc hL hm
  obtain ⟨f', he', hff⟩ := ends_retold hF hu he
  have h1 := laid_lay ht hl
  rw [show (pieces.map fun p => p.cell.lexeme) = (pieces.map Piece.cell).map Cell.lexeme by rw [List.map_map]; rfl, hp,
    lex_stmts es Kn.len] at h1
  have h2 := relaid_lay ht hl hl'
  rw [show (pieces.map fun p => p.cell.lexeme' (sayOf d.param d'.param ls)) =
      (pieces.map Piece.cell).map (Cell.lexeme' (sayOf d.param d'.param ls)) by rw [List.map_map]; rfl, hp,
    lex_stmts' (d' := d') (by show (inDict 116 ls d.my).getD _ = _; rw [hmy]; rfl)
      (by show (inDict 116 ls d.var).getD _ = _; rw [hvar]; rfl) es Kn.len] at h2
  obtain ⟨s, r, m, a1, a2, a3⟩ := Verif.Props.Program.C102 d hd W hW hsg es _ hg h1 hf f he
  obtain ⟨s', r', m', b1, b2, b3⟩ := Verif.Props.Program.C102 d' hd' W' hW' hsg' _ _ hg' h2 (fewStmts_tr es hf) f' he'
  refine ⟨_, s, r, s', r', max m m', Verif.Props.TransProg.C74_partial d d' hd hk hs ls hc L hL es hg hm pieces tail hp hl ht,
    fun n hn => a1 n (by omega), fun n hn => b1 n (by omega), a2, b2, fun x hx => ?_⟩
  have c1 := a3 x
  have c2 := b3 ((sayOf d.param d'.param ls).word x)
  rw [hff x hx] at c2
  cases hfx : f x with
  | none => rw [hfx] at c1 c2; exact ⟨c1, c2⟩
  | some v => rw [hfx] at c1 c2; exact ⟨c1, c2⟩

example : (GoodDict english ∧ GoodDict ukrainian ∧ CalmDict english ∧ GoodSeps english) ∧
    Covers english ukrainian lines2 ∧ (∃ L, load english.param (dictFile lines2) = .ok L) ∧
    gramStmts english tree2 = true ∧ gramStmts ukrainian (trNodes words2 tree2) = true ∧
    (inDict 116 lines2 english.my = some ukrainian.my ∧ inDict 116 lines2 english.var = some ukrainian.var) ∧
    (∀ ps ∈ namesOf tree2, Matched english.param ukrainian.param lines2 ps) ∧
    pieces2.map Piece.cell = cellStmts english words2 tree2 ∧ Laid english ukrainian words2 pieces2 [10] ∧
    Relaid ukrainian words2 pieces2 [10] ∧ (Distinct Spec.Program.english ∧ Distinct ukWords) ∧
    (Spec.Program.english.sign = english.param ∧ ukWords.sign = ukrainian.param) ∧ fewStmts tree2 = true ∧
    usesAll names2 messages2 parts2 tree2 = true ∧ Faithful words2 Spec.Program.english ukWords names2 messages2 parts2 ∧
    (∃ f, Ends Spec.Program.english tree2 f ∧ f [120] = some (.num 120)) ∧ words2.word [115, 117, 109] = [209, 129, 209, 131, 208, 188, 208, 176] :=
  ⟨by decide +kernel, lines2_covers,
    (Verif.Props.Trans.C38_load 58 lines2 lines2_covers.plain lines2_covers.notes).1 ⟨by decide +kernel, by decide +kernel⟩,
    by decide +kernel, by decide +kernel, by decide +kernel, lines2_matched, by decide +kernel, pieces2_laid, pieces2_relaid,
    by decide +kernel, ⟨rfl, rfl⟩, by decide +kernel, by decide +kernel, faithful2, of_gives tree2_gives.2, by decide +kernel⟩

/-! ## Names that are not kept apart -/

/-- The pieces of the program `>> sum := 1.⏎>> сума := 2.` -/
def pieces3 : List Piece :=
  [⟨[], .word [62, 62], [62, 62], [226, 152, 158]⟩,
   ⟨[32], .word [115, 117, 109], [115, 117, 109], [209, 129, 209, 131, 208, 188, 208, 176]⟩,
   ⟨[32], .assign, [58, 61], [226, 137, 148]⟩,
   ⟨[32], .num false [49], [49], [49]⟩,
   ⟨[], .eol, [46], [46]⟩,
   ⟨[10], .word [62, 62], [62, 62], [226, 152, 158]⟩,
   ⟨[32], .word [209, 129, 209, 131, 208, 188, 208, 176], [209, 129, 209, 131, 208, 188, 208, 176], [209, 129, 209, 131, 208, 188, 208, 176]⟩,
   ⟨[32], .assign, [58, 61], [226, 137, 148]⟩,
   ⟨[32], .num false [50], [50], [50]⟩,
   ⟨[], .eol, [46], [46]⟩]

def tree3 : List Node := [.assign (.ref 2 [115, 117, 109]) (.num [49]), .assign (.ref 2 [209, 129, 209, 131, 208, 188, 208, 176]) (.num [50])]

theorem pieces3_laid : Laid english ukrainian words2 pieces3 [10] := by
  unfold pieces3
  refine laid_next (by decide +kernel) (word_written (cs := ['>', '>']) (by decide +kernel) (by decide +kernel)) (by decide +kernel) (by show ([226, 152, 158] : List UInt8) = _; decide +kernel) ?_
  refine laid_next (by decide +kernel) (word_written (cs := ['s', 'u', 'm']) (by decide +kernel) (by decide +kernel)) (by decide +kernel) (by show ([209, 129, 209, 131, 208, 188, 208, 176] : List UInt8) = _; decide +kernel) ?_
  refine laid_next (by decide +kernel) (.inl rfl) (by decide +kernel) (rfl) ?_
  refine laid_next (by decide +kernel) (⟨[], [[49]], [], by decide +kernel, by decide +kernel, .inl rfl, by decide +kernel, by decide +kernel, by decide +kernel, by decide +kernel, by decide +kernel, by decide +kernel⟩) (by decide +kernel) (⟨[], [[49]], [], .inl rfl, by decide +kernel, by decide +kernel, by decide +kernel, by decide +kernel⟩) ?_
  refine laid_next (by decide +kernel) (rfl) (by decide +kernel) (rfl) ?_
  refine laid_next (by decide +kernel) (word_written (cs := ['>', '>']) (by decide +kernel) (by decide +kernel)) (by decide +kernel) (by show ([226, 152, 158] : List UInt8) = _; decide +kernel) ?_
  refine laid_next (by decide +kernel) (word_written (cs := ['с', 'у', 'м', 'а']) (by decide +kernel) (by decide +kernel)) (by decide +kernel) (by show ([209, 129, 209, 131, 208, 188, 208, 176] : List UInt8) = _; decide +kernel) ?_
  refine laid_next (by decide +kernel) (.inl rfl) (by decide +kernel) (rfl) ?_
  refine laid_next (by decide +kernel) (⟨[], [[50]], [], by decide +kernel, by decide +kernel, .inl rfl, by decide +kernel, by decide +kernel, by decide +kernel, by decide +kernel, by decide +kernel, by decide +kernel⟩) (by decide +kernel) (⟨[], [[50]], [], .inl rfl, by decide +kernel, by decide +kernel, by decide +kernel, by decide +kernel⟩) ?_
  refine laid_next (by decide +kernel) (rfl) (by decide +kernel) (rfl) ?_
  trivial

theorem pieces3_relaid : Relaid ukrainian words2 pieces3 [10] := by
  unfold pieces3
  refine relaid_next (word_written (cs := ['☞']) (by decide +kernel) (by decide +kernel)) ?_
  refine relaid_next (word_written (cs := ['с', 'у', 'м', 'а']) (by decide +kernel) (by decide +kernel)) ?_
  refine relaid_next (.inl rfl) ?_
  refine relaid_next (⟨[], [[49]], [], by decide +kernel, by decide +kernel, .inl rfl, by decide +kernel, by decide +kernel, by decide +kernel, by decide +kernel, by decide +kernel, by decide +kernel⟩) ?_
  refine relaid_next (rfl) ?_
  refine relaid_next (word_written (cs := ['☞']) (by decide +kernel) (by decide +kernel)) ?_
  refine relaid_next (word_written (cs := ['с', 'у', 'м', 'а']) (by decide +kernel) (by decide +kernel)) ?_
  refine relaid_next (.inl rfl) ?_
  refine relaid_next (⟨[], [[50]], [], by decide +kernel, by decide +kernel, .inl rfl, by decide +kernel, by decide +kernel, by decide +kernel, by decide +kernel, by decide +kernel, by decide +kernel⟩) ?_
  refine relaid_next (rfl) ?_
  trivial

/-- The condition on names is needed: the program `>> sum := 1. >> сума := 2.` is translated to one with a single variable; what was 1
is 2 after translation, without any error or warning. -/
theorem C104_violated_clash : ∃ L out s r s' r' m o o', load english.param (dictFile lines2) = .ok L ∧
    program english L (source pieces3 [10]) = .ok out ∧
    (∀ n, m ≤ n → main english (intern Spec.Program.english) Spec.Program.english n (source pieces3 [10])
      (start (intern Spec.Program.english) Spec.Program.english) = .ok (s, r)) ∧
    (∀ n, m ≤ n → main ukrainian (intern ukWords) ukWords n out (start (intern ukWords) ukWords) = .ok (s', r')) ∧
    s.flow = none ∧ s'.flow = none ∧
    find s (intern Spec.Program.english [115, 117, 109]) = (s, o) ∧ (s.obj o).val = .num 1 ∧
    find s' (intern ukWords (words2.word [115, 117, 109])) = (s', o') ∧ (s'.obj o').val = .num 2 := by
  obtain ⟨L, hL⟩ := (Verif.Props.Trans.C38_load 58 lines2 lines2_covers.plain lines2_covers.notes).1 ⟨by decide +kernel, by decide +kernel⟩
  have hs : GoodSeps english := by decide +kernel
  have hm : ∀ ps ∈ namesOf tree3, Matched english.param ukrainian.param lines2 ps := by
    rw [show namesOf tree3 = [] by decide +kernel]; exact fun _ h => (nomatch h)
  have hp : pieces3.map Piece.cell = cellStmts english (sayOf english.param ukrainian.param lines2) tree3 := by decide +kernel
  have ht : ∀ c ∈ ([10] : List UInt8), blank c = true := by decide
  have Kn := knows hs lines2_covers hL hm
  have h1 := laid_lay ht pieces3_laid
  rw [show (pieces3.map fun p => p.cell.lexeme) = (pieces3.map Piece.cell).map Cell.lexeme by rw [List.map_map]; rfl, hp,
    lex_stmts tree3 Kn.len] at h1
  have h2 := relaid_lay ht pieces3_laid pieces3_relaid
  rw [show (pieces3.map fun p => p.cell.lexeme' words2) = (pieces3.map Piece.cell).map (Cell.lexeme' words2) by rw [List.map_map]; rfl, hp,
    show words2 = sayOf english.param ukrainian.param lines2 from rfl,
    lex_stmts' (d' := ukrainian) (by decide +kernel) (by decide +kernel) tree3 Kn.len] at h2
  obtain ⟨f, he, hf⟩ := of_gives (W := Spec.Program.english) (n := 9) (es := tree3) (x := [115, 117, 109]) (z := 1) (by decide +kernel)
  obtain ⟨f', he', hf'⟩ := of_gives (W := ukWords) (n := 9) (es := trNodes words2 tree3) (x := words2.word [115, 117, 109]) (z := 2)
    (by decide +kernel)
  obtain ⟨s, r, m, a1, a2, a3⟩ := Verif.Props.Program.C102 english (by decide +kernel) Spec.Program.english (by decide +kernel) rfl tree3 _
    (by decide +kernel) h1 (by decide +kernel) f he
  obtain ⟨s', r', m', b1, b2, b3⟩ := Verif.Props.Program.C102 ukrainian (by decide +kernel) ukWords (by decide +kernel) rfl _ _
    (by decide +kernel) h2 (by decide +kernel) f' he'
  have c1 := a3 [115, 117, 109]
  have c2 := b3 (words2.word [115, 117, 109])
  rw [hf] at c1
  rw [hf'] at c2
  obtain ⟨o, d1, d2⟩ := c1
  obtain ⟨o', e1, e2⟩ := c2
  exact ⟨L, _, s, r, s', r', max m m', o, o', hL, Verif.Props.TransProg.C74_partial english ukrainian (by decide +kernel) (by decide +kernel) hs
    lines2 lines2_covers L hL tree3 (by decide +kernel) hm pieces3 [10] hp pieces3_laid ht,
    fun n hn => a1 n (by omega), fun n hn => b1 n (by omega), a2, b2, d1, d2, e1, e2⟩

end Verif.Props.Retold
