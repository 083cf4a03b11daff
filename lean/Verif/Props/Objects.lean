import Verif.Lemmas.ObjectsStart
import Verif.Props.Parser

/-!
# C103: programs with objects, sequences, texts and errors compute what they say
-/

namespace Verif.Props.Objects
open Verif.Model.Objects
open Verif.Model.Program (lowerAll intern intern_names Names)
open Verif.Model.Interp (St find getp)
open Verif.Spec (Dict Node)
open Verif.Spec.Lexer
open Verif.Spec.Parser
open Verif.Spec.Objects (Words V Frame Ob Sig Ends)
open Verif.Spec.Program (fewStmts)
open Verif.Props.Parser (gap_blanks word_written)

/-! ## Examples -/

/-- The program
```
    >> counter := Object new.
    counter on: ['reset'] do: { own sum := 0. }.
    counter on: ['add:'] do: {:n own sum := own sum + n. }.
    counter on: ['sum'] do: { <- own sum. }.
    >> c := counter new.
    c reset.
    >> l := Sequence ← 3 ; 4 ; 5.
    l each: {:i :v c add: i * v. }.
    >> x := c sum.
    >> math := Object new.
    math on: ['fac:'] do: {:n
      >> r := 1.
      (n > 1) true: { r := n * (self recursive fac: n - 1). }.
      <- r.
    }.
    >> y := math fac: 5.
    >> e := None.
    {
      this-task error: ['bad'].
      x := 0.
    } except: {:t e := t + ['!']. }, start.
``` -/
def demo : List UInt8 :=
  [62, 62, 32, 99, 111, 117, 110, 116, 101, 114, 32, 58, 61, 32, 79, 98, 106, 101, 99, 116, 32, 110, 101, 119, 46, 10, 99, 111, 117, 110, 116, 101, 114, 32, 111, 110, 58, 32, 91, 39, 114, 101, 115, 101, 116, 39, 93, 32, 100, 111, 58, 32, 123, 32, 111, 119, 110, 32, 115, 117, 109, 32, 58, 61, 32, 48, 46, 32, 125, 46, 10, 99, 111, 117, 110, 116, 101, 114, 32, 111, 110, 58, 32, 91, 39, 97, 100, 100, 58, 39, 93, 32, 100, 111, 58, 32, 123, 58, 110, 32, 111, 119, 110, 32, 115, 117, 109, 32, 58, 61, 32, 111, 119, 110, 32, 115, 117, 109, 32, 43, 32, 110, 46, 32, 125, 46, 10, 99, 111, 117, 110, 116, 101, 114, 32, 111, 110, 58, 32, 91, 39, 115, 117, 109, 39, 93, 32, 100, 111, 58, 32, 123, 32, 60, 45, 32, 111, 119, 110, 32, 115, 117, 109, 46, 32, 125, 46, 10, 62, 62, 32, 99, 32, 58, 61, 32, 99, 111, 117, 110, 116, 101, 114, 32, 110, 101, 119, 46, 10, 99, 32, 114, 101, 115, 101, 116, 46, 10, 62, 62, 32, 108, 32, 58, 61, 32, 83, 101, 113, 117, 101, 110, 99, 101, 32, 226, 134, 144, 32, 51, 32, 59, 32, 52, 32, 59, 32, 53, 46, 10, 108, 32, 101, 97, 99, 104, 58, 32, 123, 58, 105, 32, 58, 118, 32, 99, 32, 97, 100, 100, 58, 32, 105, 32, 42, 32, 118, 46, 32, 125, 46, 10, 62, 62, 32, 120, 32, 58, 61, 32, 99, 32, 115, 117, 109, 46, 10, 62, 62, 32, 109, 97, 116, 104, 32, 58, 61, 32, 79, 98, 106, 101, 99, 116, 32, 110, 101, 119, 46, 10, 109, 97, 116, 104, 32, 111, 110, 58, 32, 91, 39, 102, 97, 99, 58, 39, 93, 32, 100, 111, 58, 32, 123, 58, 110, 10, 32, 32, 62, 62, 32, 114, 32, 58, 61, 32, 49, 46, 10, 32, 32, 40, 110, 32, 62, 32, 49, 41, 32, 116, 114, 117, 101, 58, 32, 123, 32, 114, 32, 58, 61, 32, 110, 32, 42, 32, 40, 115, 101, 108, 102, 32, 114, 101, 99, 117, 114, 115, 105, 118, 101, 32, 102, 97, 99, 58, 32, 110, 32, 45, 32, 49, 41, 46, 32, 125, 46, 10, 32, 32, 60, 45, 32, 114, 46, 10, 125, 46, 10, 62, 62, 32, 121, 32, 58, 61, 32, 109, 97, 116, 104, 32, 102, 97, 99, 58, 32, 53, 46, 10, 62, 62, 32, 101, 32, 58, 61, 32, 78, 111, 110, 101, 46, 10, 123, 10, 32, 32, 116, 104, 105, 115, 45, 116, 97, 115, 107, 32, 101, 114, 114, 111, 114, 58, 32, 91, 39, 98, 97, 100, 39, 93, 46, 10, 32, 32, 120, 32, 58, 61, 32, 48, 46, 10, 125, 32, 101, 120, 99, 101, 112, 116, 58, 32, 123, 58, 116, 32, 101, 32, 58, 61, 32, 116, 32, 43, 32, 91, 39, 33, 39, 93, 46, 32, 125, 44, 32, 115, 116, 97, 114, 116, 46, 10]

/-- Its tree. -/
def demoTree : List Node :=
  [.assign (.ref 2 [99, 111, 117, 110, 116, 101, 114]) (.msg (.ref 0 [79, 98, 106, 101, 99, 116]) [.una [110, 101, 119]]),
   .msg (.ref 0 [99, 111, 117, 110, 116, 101, 114]) [.kw [[111, 110], [100, 111]] [.str [114, 101, 115, 101, 116], .block [] [.assign (.ref 1 [115, 117, 109]) (.num [48])]]],
   .msg (.ref 0 [99, 111, 117, 110, 116, 101, 114]) [.kw [[111, 110], [100, 111]] [.str [97, 100, 100, 58], .block [[110]] [.assign (.ref 1 [115, 117, 109]) (.msg (.ref 1 [115, 117, 109]) [.bin [43] (.ref 0 [110])])]]],
   .msg (.ref 0 [99, 111, 117, 110, 116, 101, 114]) [.kw [[111, 110], [100, 111]] [.str [115, 117, 109], .block [] [.ret (.ref 1 [115, 117, 109])]]],
   .assign (.ref 2 [99]) (.msg (.ref 0 [99, 111, 117, 110, 116, 101, 114]) [.una [110, 101, 119]]),
   .msg (.ref 0 [99]) [.una [114, 101, 115, 101, 116]],
   .assign (.ref 2 [108]) (.msg (.ref 0 [83, 101, 113, 117, 101, 110, 99, 101]) [.bin [226, 134, 144] (.num [51]), .bin [59] (.num [52]), .bin [59] (.num [53])]),
   .msg (.ref 0 [108]) [.kw [[101, 97, 99, 104]] [.block [[105], [118]] [.msg (.ref 0 [99]) [.kw [[97, 100, 100]] [.msg (.ref 0 [105]) [.bin [42] (.ref 0 [118])]]]]]],
   .assign (.ref 2 [120]) (.msg (.ref 0 [99]) [.una [115, 117, 109]]),
   .assign (.ref 2 [109, 97, 116, 104]) (.msg (.ref 0 [79, 98, 106, 101, 99, 116]) [.una [110, 101, 119]]),
   .msg (.ref 0 [109, 97, 116, 104]) [.kw [[111, 110], [100, 111]] [.str [102, 97, 99, 58], .block [[110]] [.assign (.ref 2 [114]) (.num [49]), .msg (.nested (.msg (.ref 0 [110]) [.bin [62] (.num [49])])) [.kw [[116, 114, 117, 101]] [.block [] [.assign (.ref 0 [114]) (.msg (.ref 0 [110]) [.bin [42] (.nested (.msg (.ref 0 [115, 101, 108, 102]) [.una [114, 101, 99, 117, 114, 115, 105, 118, 101], .kw [[102, 97, 99]] [.msg (.ref 0 [110]) [.bin [45] (.num [49])]]]))])]]], .ret (.ref 0 [114])]]],
   .assign (.ref 2 [121]) (.msg (.ref 0 [109, 97, 116, 104]) [.kw [[102, 97, 99]] [.num [53]]]),
   .assign (.ref 2 [101]) (.ref 0 [78, 111, 110, 101]),
   .msg (.block [] [.msg (.ref 0 [116, 104, 105, 115, 45, 116, 97, 115, 107]) [.kw [[101, 114, 114, 111, 114]] [.str [98, 97, 100]]], .assign (.ref 0 [120]) (.num [48])]) [.kw [[101, 120, 99, 101, 112, 116]] [.block [[116]] [.assign (.ref 0 [101]) (.msg (.ref 0 [116]) [.bin [43] (.str [33])])]], .una [115, 116, 97, 114, 116]]]

theorem demo_lexemes : lexStmts Spec.english demoTree =
    [.word [62, 62], .word [99, 111, 117, 110, 116, 101, 114], .assign, .word [79, 98, 106, 101, 99, 116], .word [110, 101, 119], .eol, .word [99, 111, 117, 110, 116, 101, 114], .word [111, 110], .colon, .lit [114, 101, 115, 101, 116], .word [100, 111], .colon, .bopen, .word [111, 119, 110], .word [115, 117, 109], .assign, .num [48], .eol, .bclose, .eol, .word [99, 111, 117, 110, 116, 101, 114], .word [111, 110], .colon, .lit [97, 100, 100, 58], .word [100, 111], .colon, .bopen, .colon, .word [110], .word [111, 119, 110], .word [115, 117, 109], .assign, .word [111, 119, 110], .word [115, 117, 109], .word [43], .word [110], .eol, .bclose, .eol, .word [99, 111, 117, 110, 116, 101, 114], .word [111, 110], .colon, .lit [115, 117, 109], .word [100, 111], .colon, .bopen, .ret, .word [111, 119, 110], .word [115, 117, 109], .eol, .bclose, .eol, .word [62, 62], .word [99], .assign, .word [99, 111, 117, 110, 116, 101, 114], .word [110, 101, 119], .eol, .word [99], .word [114, 101, 115, 101, 116], .eol, .word [62, 62], .word [108], .assign, .word [83, 101, 113, 117, 101, 110, 99, 101], .word [226, 134, 144], .num [51], .word [59], .num [52], .word [59], .num [53], .eol, .word [108], .word [101, 97, 99, 104], .colon, .bopen, .colon, .word [105], .colon, .word [118], .word [99], .word [97, 100, 100], .colon, .word [105], .word [42], .word [118], .eol, .bclose, .eol, .word [62, 62], .word [120], .assign, .word [99], .word [115, 117, 109], .eol, .word [62, 62], .word [109, 97, 116, 104], .assign, .word [79, 98, 106, 101, 99, 116], .word [110, 101, 119], .eol, .word [109, 97, 116, 104], .word [111, 110], .colon, .lit [102, 97, 99, 58], .word [100, 111], .colon, .bopen, .colon, .word [110], .word [62, 62], .word [114], .assign, .num [49], .eol, .popen, .word [110], .word [62], .num [49], .pclose, .word [116, 114, 117, 101], .colon, .bopen, .word [114], .assign, .word [110], .word [42], .popen, .word [115, 101, 108, 102], .word [114, 101, 99, 117, 114, 115, 105, 118, 101], .word [102, 97, 99], .colon, .word [110], .word [45], .num [49], .pclose, .eol, .bclose, .eol, .ret, .word [114], .eol, .bclose, .eol, .word [62, 62], .word [121], .assign, .word [109, 97, 116, 104], .word [102, 97, 99], .colon, .num [53], .eol, .word [62, 62], .word [101], .assign, .word [78, 111, 110, 101], .eol, .bopen, .word [116, 104, 105, 115, 45, 116, 97, 115, 107], .word [101, 114, 114, 111, 114], .colon, .lit [98, 97, 100], .eol, .word [120], .assign, .num [48], .eol, .bclose, .word [101, 120, 99, 101, 112, 116], .colon, .bopen, .colon, .word [116], .word [101], .assign, .word [116], .word [43], .lit [33], .eol, .bclose, .chain, .word [115, 116, 97, 114, 116], .eol] := by
  unfold demoTree
  simp only [lexStmts, lexemes, lexMsgs, lexArgs]
  rfl

theorem demo_lay : Lay Spec.english (lexStmts Spec.english demoTree) demo := by
  rw [demo_lexemes]
  unfold demo
  refine Lay.next (g := []) (b := [62, 62]) (gap_blanks (by decide)) (word_written (cs := ['>', '>']) (by decide) (by decide)) ?_
  refine Lay.next (g := [32]) (b := [99, 111, 117, 110, 116, 101, 114]) (gap_blanks (by decide)) (word_written (cs := ['c', 'o', 'u', 'n', 't', 'e', 'r']) (by decide) (by decide)) ?_
  refine Lay.next (g := [32]) (b := [58, 61]) (gap_blanks (by decide)) (Or.inl rfl) ?_
  refine Lay.next (g := [32]) (b := [79, 98, 106, 101, 99, 116]) (gap_blanks (by decide)) (word_written (cs := ['O', 'b', 'j', 'e', 'c', 't']) (by decide) (by decide)) ?_
  refine Lay.next (g := [32]) (b := [110, 101, 119]) (gap_blanks (by decide)) (word_written (cs := ['n', 'e', 'w']) (by decide) (by decide)) ?_
  refine Lay.next (g := []) (b := [46]) (gap_blanks (by decide)) rfl ?_
  refine Lay.next (g := [10]) (b := [99, 111, 117, 110, 116, 101, 114]) (gap_blanks (by decide)) (word_written (cs := ['c', 'o', 'u', 'n', 't', 'e', 'r']) (by decide) (by decide)) ?_
  refine Lay.next (g := [32]) (b := [111, 110]) (gap_blanks (by decide)) (word_written (cs := ['o', 'n']) (by decide) (by decide)) ?_
  refine Lay.next (g := []) (b := [58]) (gap_blanks (by decide)) ⟨rfl, by decide⟩ ?_
  refine Lay.next (g := [32]) (b := [91, 39, 114, 101, 115, 101, 116, 39, 93]) (gap_blanks (by decide)) ⟨rfl, Nested.byte (by decide) (by decide) (Nested.byte (by decide) (by decide) (Nested.byte (by decide) (by decide) (Nested.byte (by decide) (by decide) (Nested.byte (by decide) (by decide) (Nested.nil _)))))⟩ ?_
  refine Lay.next (g := [32]) (b := [100, 111]) (gap_blanks (by decide)) (word_written (cs := ['d', 'o']) (by decide) (by decide)) ?_
  refine Lay.next (g := []) (b := [58]) (gap_blanks (by decide)) ⟨rfl, by decide⟩ ?_
  refine Lay.next (g := [32]) (b := [123]) (gap_blanks (by decide)) rfl ?_
  refine Lay.next (g := [32]) (b := [111, 119, 110]) (gap_blanks (by decide)) (word_written (cs := ['o', 'w', 'n']) (by decide) (by decide)) ?_
  refine Lay.next (g := [32]) (b := [115, 117, 109]) (gap_blanks (by decide)) (word_written (cs := ['s', 'u', 'm']) (by decide) (by decide)) ?_
  refine Lay.next (g := [32]) (b := [58, 61]) (gap_blanks (by decide)) (Or.inl rfl) ?_
  refine Lay.next (g := [32]) (b := [48]) (gap_blanks (by decide)) ⟨[], [[48]], [], rfl, rfl, Or.inl rfl, by decide, by decide, by decide, by decide, by decide, by decide⟩ ?_
  refine Lay.next (g := []) (b := [46]) (gap_blanks (by decide)) rfl ?_
  refine Lay.next (g := [32]) (b := [125]) (gap_blanks (by decide)) rfl ?_
  refine Lay.next (g := []) (b := [46]) (gap_blanks (by decide)) rfl ?_
  refine Lay.next (g := [10]) (b := [99, 111, 117, 110, 116, 101, 114]) (gap_blanks (by decide)) (word_written (cs := ['c', 'o', 'u', 'n', 't', 'e', 'r']) (by decide) (by decide)) ?_
  refine Lay.next (g := [32]) (b := [111, 110]) (gap_blanks (by decide)) (word_written (cs := ['o', 'n']) (by decide) (by decide)) ?_
  refine Lay.next (g := []) (b := [58]) (gap_blanks (by decide)) ⟨rfl, by decide⟩ ?_
  refine Lay.next (g := [32]) (b := [91, 39, 97, 100, 100, 58, 39, 93]) (gap_blanks (by decide)) ⟨rfl, Nested.byte (by decide) (by decide) (Nested.byte (by decide) (by decide) (Nested.byte (by decide) (by decide) (Nested.byte (by decide) (by decide) (Nested.nil _))))⟩ ?_
  refine Lay.next (g := [32]) (b := [100, 111]) (gap_blanks (by decide)) (word_written (cs := ['d', 'o']) (by decide) (by decide)) ?_
  refine Lay.next (g := []) (b := [58]) (gap_blanks (by decide)) ⟨rfl, by decide⟩ ?_
  refine Lay.next (g := [32]) (b := [123]) (gap_blanks (by decide)) rfl ?_
  refine Lay.next (g := []) (b := [58]) (gap_blanks (by decide)) ⟨rfl, by decide⟩ ?_
  refine Lay.next (g := []) (b := [110]) (gap_blanks (by decide)) (word_written (cs := ['n']) (by decide) (by decide)) ?_
  refine Lay.next (g := [32]) (b := [111, 119, 110]) (gap_blanks (by decide)) (word_written (cs := ['o', 'w', 'n']) (by decide) (by decide)) ?_
  refine Lay.next (g := [32]) (b := [115, 117, 109]) (gap_blanks (by decide)) (word_written (cs := ['s', 'u', 'm']) (by decide) (by decide)) ?_
  refine Lay.next (g := [32]) (b := [58, 61]) (gap_blanks (by decide)) (Or.inl rfl) ?_
  refine Lay.next (g := [32]) (b := [111, 119, 110]) (gap_blanks (by decide)) (word_written (cs := ['o', 'w', 'n']) (by decide) (by decide)) ?_
  refine Lay.next (g := [32]) (b := [115, 117, 109]) (gap_blanks (by decide)) (word_written (cs := ['s', 'u', 'm']) (by decide) (by decide)) ?_
  refine Lay.next (g := [32]) (b := [43]) (gap_blanks (by decide)) (word_written (cs := ['+']) (by decide) (by decide)) ?_
  refine Lay.next (g := [32]) (b := [110]) (gap_blanks (by decide)) (word_written (cs := ['n']) (by decide) (by decide)) ?_
  refine Lay.next (g := []) (b := [46]) (gap_blanks (by decide)) rfl ?_
  refine Lay.next (g := [32]) (b := [125]) (gap_blanks (by decide)) rfl ?_
  refine Lay.next (g := []) (b := [46]) (gap_blanks (by decide)) rfl ?_
  refine Lay.next (g := [10]) (b := [99, 111, 117, 110, 116, 101, 114]) (gap_blanks (by decide)) (word_written (cs := ['c', 'o', 'u', 'n', 't', 'e', 'r']) (by decide) (by decide)) ?_
  refine Lay.next (g := [32]) (b := [111, 110]) (gap_blanks (by decide)) (word_written (cs := ['o', 'n']) (by decide) (by decide)) ?_
  refine Lay.next (g := []) (b := [58]) (gap_blanks (by decide)) ⟨rfl, by decide⟩ ?_
  refine Lay.next (g := [32]) (b := [91, 39, 115, 117, 109, 39, 93]) (gap_blanks (by decide)) ⟨rfl, Nested.byte (by decide) (by decide) (Nested.byte (by decide) (by decide) (Nested.byte (by decide) (by decide) (Nested.nil _)))⟩ ?_
  refine Lay.next (g := [32]) (b := [100, 111]) (gap_blanks (by decide)) (word_written (cs := ['d', 'o']) (by decide) (by decide)) ?_
  refine Lay.next (g := []) (b := [58]) (gap_blanks (by decide)) ⟨rfl, by decide⟩ ?_
  refine Lay.next (g := [32]) (b := [123]) (gap_blanks (by decide)) rfl ?_
  refine Lay.next (g := [32]) (b := [60, 45]) (gap_blanks (by decide)) ⟨rfl, rfl⟩ ?_
  refine Lay.next (g := [32]) (b := [111, 119, 110]) (gap_blanks (by decide)) (word_written (cs := ['o', 'w', 'n']) (by decide) (by decide)) ?_
  refine Lay.next (g := [32]) (b := [115, 117, 109]) (gap_blanks (by decide)) (word_written (cs := ['s', 'u', 'm']) (by decide) (by decide)) ?_
  refine Lay.next (g := []) (b := [46]) (gap_blanks (by decide)) rfl ?_
  refine Lay.next (g := [32]) (b := [125]) (gap_blanks (by decide)) rfl ?_
  refine Lay.next (g := []) (b := [46]) (gap_blanks (by decide)) rfl ?_
  refine Lay.next (g := [10]) (b := [62, 62]) (gap_blanks (by decide)) (word_written (cs := ['>', '>']) (by decide) (by decide)) ?_
  refine Lay.next (g := [32]) (b := [99]) (gap_blanks (by decide)) (word_written (cs := ['c']) (by decide) (by decide)) ?_
  refine Lay.next (g := [32]) (b := [58, 61]) (gap_blanks (by decide)) (Or.inl rfl) ?_
  refine Lay.next (g := [32]) (b := [99, 111, 117, 110, 116, 101, 114]) (gap_blanks (by decide)) (word_written (cs := ['c', 'o', 'u', 'n', 't', 'e', 'r']) (by decide) (by decide)) ?_
  refine Lay.next (g := [32]) (b := [110, 101, 119]) (gap_blanks (by decide)) (word_written (cs := ['n', 'e', 'w']) (by decide) (by decide)) ?_
  refine Lay.next (g := []) (b := [46]) (gap_blanks (by decide)) rfl ?_
  refine Lay.next (g := [10]) (b := [99]) (gap_blanks (by decide)) (word_written (cs := ['c']) (by decide) (by decide)) ?_
  refine Lay.next (g := [32]) (b := [114, 101, 115, 101, 116]) (gap_blanks (by decide)) (word_written (cs := ['r', 'e', 's', 'e', 't']) (by decide) (by decide)) ?_
  refine Lay.next (g := []) (b := [46]) (gap_blanks (by decide)) rfl ?_
  refine Lay.next (g := [10]) (b := [62, 62]) (gap_blanks (by decide)) (word_written (cs := ['>', '>']) (by decide) (by decide)) ?_
  refine Lay.next (g := [32]) (b := [108]) (gap_blanks (by decide)) (word_written (cs := ['l']) (by decide) (by decide)) ?_
  refine Lay.next (g := [32]) (b := [58, 61]) (gap_blanks (by decide)) (Or.inl rfl) ?_
  refine Lay.next (g := [32]) (b := [83, 101, 113, 117, 101, 110, 99, 101]) (gap_blanks (by decide)) (word_written (cs := ['S', 'e', 'q', 'u', 'e', 'n', 'c', 'e']) (by decide) (by decide)) ?_
  refine Lay.next (g := [32]) (b := [226, 134, 144]) (gap_blanks (by decide)) (word_written (cs := ['←']) (by decide) (by decide)) ?_
  refine Lay.next (g := [32]) (b := [51]) (gap_blanks (by decide)) ⟨[], [[51]], [], rfl, rfl, Or.inl rfl, by decide, by decide, by decide, by decide, by decide, by decide⟩ ?_
  refine Lay.next (g := [32]) (b := [59]) (gap_blanks (by decide)) (word_written (cs := [';']) (by decide) (by decide)) ?_
  refine Lay.next (g := [32]) (b := [52]) (gap_blanks (by decide)) ⟨[], [[52]], [], rfl, rfl, Or.inl rfl, by decide, by decide, by decide, by decide, by decide, by decide⟩ ?_
  refine Lay.next (g := [32]) (b := [59]) (gap_blanks (by decide)) (word_written (cs := [';']) (by decide) (by decide)) ?_
  refine Lay.next (g := [32]) (b := [53]) (gap_blanks (by decide)) ⟨[], [[53]], [], rfl, rfl, Or.inl rfl, by decide, by decide, by decide, by decide, by decide, by decide⟩ ?_
  refine Lay.next (g := []) (b := [46]) (gap_blanks (by decide)) rfl ?_
  refine Lay.next (g := [10]) (b := [108]) (gap_blanks (by decide)) (word_written (cs := ['l']) (by decide) (by decide)) ?_
  refine Lay.next (g := [32]) (b := [101, 97, 99, 104]) (gap_blanks (by decide)) (word_written (cs := ['e', 'a', 'c', 'h']) (by decide) (by decide)) ?_
  refine Lay.next (g := []) (b := [58]) (gap_blanks (by decide)) ⟨rfl, by decide⟩ ?_
  refine Lay.next (g := [32]) (b := [123]) (gap_blanks (by decide)) rfl ?_
  refine Lay.next (g := []) (b := [58]) (gap_blanks (by decide)) ⟨rfl, by decide⟩ ?_
  refine Lay.next (g := []) (b := [105]) (gap_blanks (by decide)) (word_written (cs := ['i']) (by decide) (by decide)) ?_
  refine Lay.next (g := [32]) (b := [58]) (gap_blanks (by decide)) ⟨rfl, by decide⟩ ?_
  refine Lay.next (g := []) (b := [118]) (gap_blanks (by decide)) (word_written (cs := ['v']) (by decide) (by decide)) ?_
  refine Lay.next (g := [32]) (b := [99]) (gap_blanks (by decide)) (word_written (cs := ['c']) (by decide) (by decide)) ?_
  refine Lay.next (g := [32]) (b := [97, 100, 100]) (gap_blanks (by decide)) (word_written (cs := ['a', 'd', 'd']) (by decide) (by decide)) ?_
  refine Lay.next (g := []) (b := [58]) (gap_blanks (by decide)) ⟨rfl, by decide⟩ ?_
  refine Lay.next (g := [32]) (b := [105]) (gap_blanks (by decide)) (word_written (cs := ['i']) (by decide) (by decide)) ?_
  refine Lay.next (g := [32]) (b := [42]) (gap_blanks (by decide)) (word_written (cs := ['*']) (by decide) (by decide)) ?_
  refine Lay.next (g := [32]) (b := [118]) (gap_blanks (by decide)) (word_written (cs := ['v']) (by decide) (by decide)) ?_
  refine Lay.next (g := []) (b := [46]) (gap_blanks (by decide)) rfl ?_
  refine Lay.next (g := [32]) (b := [125]) (gap_blanks (by decide)) rfl ?_
  refine Lay.next (g := []) (b := [46]) (gap_blanks (by decide)) rfl ?_
  refine Lay.next (g := [10]) (b := [62, 62]) (gap_blanks (by decide)) (word_written (cs := ['>', '>']) (by decide) (by decide)) ?_
  refine Lay.next (g := [32]) (b := [120]) (gap_blanks (by decide)) (word_written (cs := ['x']) (by decide) (by decide)) ?_
  refine Lay.next (g := [32]) (b := [58, 61]) (gap_blanks (by decide)) (Or.inl rfl) ?_
  refine Lay.next (g := [32]) (b := [99]) (gap_blanks (by decide)) (word_written (cs := ['c']) (by decide) (by decide)) ?_
  refine Lay.next (g := [32]) (b := [115, 117, 109]) (gap_blanks (by decide)) (word_written (cs := ['s', 'u', 'm']) (by decide) (by decide)) ?_
  refine Lay.next (g := []) (b := [46]) (gap_blanks (by decide)) rfl ?_
  refine Lay.next (g := [10]) (b := [62, 62]) (gap_blanks (by decide)) (word_written (cs := ['>', '>']) (by decide) (by decide)) ?_
  refine Lay.next (g := [32]) (b := [109, 97, 116, 104]) (gap_blanks (by decide)) (word_written (cs := ['m', 'a', 't', 'h']) (by decide) (by decide)) ?_
  refine Lay.next (g := [32]) (b := [58, 61]) (gap_blanks (by decide)) (Or.inl rfl) ?_
  refine Lay.next (g := [32]) (b := [79, 98, 106, 101, 99, 116]) (gap_blanks (by decide)) (word_written (cs := ['O', 'b', 'j', 'e', 'c', 't']) (by decide) (by decide)) ?_
  refine Lay.next (g := [32]) (b := [110, 101, 119]) (gap_blanks (by decide)) (word_written (cs := ['n', 'e', 'w']) (by decide) (by decide)) ?_
  refine Lay.next (g := []) (b := [46]) (gap_blanks (by decide)) rfl ?_
  refine Lay.next (g := [10]) (b := [109, 97, 116, 104]) (gap_blanks (by decide)) (word_written (cs := ['m', 'a', 't', 'h']) (by decide) (by decide)) ?_
  refine Lay.next (g := [32]) (b := [111, 110]) (gap_blanks (by decide)) (word_written (cs := ['o', 'n']) (by decide) (by decide)) ?_
  refine Lay.next (g := []) (b := [58]) (gap_blanks (by decide)) ⟨rfl, by decide⟩ ?_
  refine Lay.next (g := [32]) (b := [91, 39, 102, 97, 99, 58, 39, 93]) (gap_blanks (by decide)) ⟨rfl, Nested.byte (by decide) (by decide) (Nested.byte (by decide) (by decide) (Nested.byte (by decide) (by decide) (Nested.byte (by decide) (by decide) (Nested.nil _))))⟩ ?_
  refine Lay.next (g := [32]) (b := [100, 111]) (gap_blanks (by decide)) (word_written (cs := ['d', 'o']) (by decide) (by decide)) ?_
  refine Lay.next (g := []) (b := [58]) (gap_blanks (by decide)) ⟨rfl, by decide⟩ ?_
  refine Lay.next (g := [32]) (b := [123]) (gap_blanks (by decide)) rfl ?_
  refine Lay.next (g := []) (b := [58]) (gap_blanks (by decide)) ⟨rfl, by decide⟩ ?_
  refine Lay.next (g := []) (b := [110]) (gap_blanks (by decide)) (word_written (cs := ['n']) (by decide) (by decide)) ?_
  refine Lay.next (g := [10, 32, 32]) (b := [62, 62]) (gap_blanks (by decide)) (word_written (cs := ['>', '>']) (by decide) (by decide)) ?_
  refine Lay.next (g := [32]) (b := [114]) (gap_blanks (by decide)) (word_written (cs := ['r']) (by decide) (by decide)) ?_
  refine Lay.next (g := [32]) (b := [58, 61]) (gap_blanks (by decide)) (Or.inl rfl) ?_
  refine Lay.next (g := [32]) (b := [49]) (gap_blanks (by decide)) ⟨[], [[49]], [], rfl, rfl, Or.inl rfl, by decide, by decide, by decide, by decide, by decide, by decide⟩ ?_
  refine Lay.next (g := []) (b := [46]) (gap_blanks (by decide)) rfl ?_
  refine Lay.next (g := [10, 32, 32]) (b := [40]) (gap_blanks (by decide)) rfl ?_
  refine Lay.next (g := []) (b := [110]) (gap_blanks (by decide)) (word_written (cs := ['n']) (by decide) (by decide)) ?_
  refine Lay.next (g := [32]) (b := [62]) (gap_blanks (by decide)) (word_written (cs := ['>']) (by decide) (by decide)) ?_
  refine Lay.next (g := [32]) (b := [49]) (gap_blanks (by decide)) ⟨[], [[49]], [], rfl, rfl, Or.inl rfl, by decide, by decide, by decide, by decide, by decide, by decide⟩ ?_
  refine Lay.next (g := []) (b := [41]) (gap_blanks (by decide)) rfl ?_
  refine Lay.next (g := [32]) (b := [116, 114, 117, 101]) (gap_blanks (by decide)) (word_written (cs := ['t', 'r', 'u', 'e']) (by decide) (by decide)) ?_
  refine Lay.next (g := []) (b := [58]) (gap_blanks (by decide)) ⟨rfl, by decide⟩ ?_
  refine Lay.next (g := [32]) (b := [123]) (gap_blanks (by decide)) rfl ?_
  refine Lay.next (g := [32]) (b := [114]) (gap_blanks (by decide)) (word_written (cs := ['r']) (by decide) (by decide)) ?_
  refine Lay.next (g := [32]) (b := [58, 61]) (gap_blanks (by decide)) (Or.inl rfl) ?_
  refine Lay.next (g := [32]) (b := [110]) (gap_blanks (by decide)) (word_written (cs := ['n']) (by decide) (by decide)) ?_
  refine Lay.next (g := [32]) (b := [42]) (gap_blanks (by decide)) (word_written (cs := ['*']) (by decide) (by decide)) ?_
  refine Lay.next (g := [32]) (b := [40]) (gap_blanks (by decide)) rfl ?_
  refine Lay.next (g := []) (b := [115, 101, 108, 102]) (gap_blanks (by decide)) (word_written (cs := ['s', 'e', 'l', 'f']) (by decide) (by decide)) ?_
  refine Lay.next (g := [32]) (b := [114, 101, 99, 117, 114, 115, 105, 118, 101]) (gap_blanks (by decide)) (word_written (cs := ['r', 'e', 'c', 'u', 'r', 's', 'i', 'v', 'e']) (by decide) (by decide)) ?_
  refine Lay.next (g := [32]) (b := [102, 97, 99]) (gap_blanks (by decide)) (word_written (cs := ['f', 'a', 'c']) (by decide) (by decide)) ?_
  refine Lay.next (g := []) (b := [58]) (gap_blanks (by decide)) ⟨rfl, by decide⟩ ?_
  refine Lay.next (g := [32]) (b := [110]) (gap_blanks (by decide)) (word_written (cs := ['n']) (by decide) (by decide)) ?_
  refine Lay.next (g := [32]) (b := [45]) (gap_blanks (by decide)) (word_written (cs := ['-']) (by decide) (by decide)) ?_
  refine Lay.next (g := [32]) (b := [49]) (gap_blanks (by decide)) ⟨[], [[49]], [], rfl, rfl, Or.inl rfl, by decide, by decide, by decide, by decide, by decide, by decide⟩ ?_
  refine Lay.next (g := []) (b := [41]) (gap_blanks (by decide)) rfl ?_
  refine Lay.next (g := []) (b := [46]) (gap_blanks (by decide)) rfl ?_
  refine Lay.next (g := [32]) (b := [125]) (gap_blanks (by decide)) rfl ?_
  refine Lay.next (g := []) (b := [46]) (gap_blanks (by decide)) rfl ?_
  refine Lay.next (g := [10, 32, 32]) (b := [60, 45]) (gap_blanks (by decide)) ⟨rfl, rfl⟩ ?_
  refine Lay.next (g := [32]) (b := [114]) (gap_blanks (by decide)) (word_written (cs := ['r']) (by decide) (by decide)) ?_
  refine Lay.next (g := []) (b := [46]) (gap_blanks (by decide)) rfl ?_
  refine Lay.next (g := [10]) (b := [125]) (gap_blanks (by decide)) rfl ?_
  refine Lay.next (g := []) (b := [46]) (gap_blanks (by decide)) rfl ?_
  refine Lay.next (g := [10]) (b := [62, 62]) (gap_blanks (by decide)) (word_written (cs := ['>', '>']) (by decide) (by decide)) ?_
  refine Lay.next (g := [32]) (b := [121]) (gap_blanks (by decide)) (word_written (cs := ['y']) (by decide) (by decide)) ?_
  refine Lay.next (g := [32]) (b := [58, 61]) (gap_blanks (by decide)) (Or.inl rfl) ?_
  refine Lay.next (g := [32]) (b := [109, 97, 116, 104]) (gap_blanks (by decide)) (word_written (cs := ['m', 'a', 't', 'h']) (by decide) (by decide)) ?_
  refine Lay.next (g := [32]) (b := [102, 97, 99]) (gap_blanks (by decide)) (word_written (cs := ['f', 'a', 'c']) (by decide) (by decide)) ?_
  refine Lay.next (g := []) (b := [58]) (gap_blanks (by decide)) ⟨rfl, by decide⟩ ?_
  refine Lay.next (g := [32]) (b := [53]) (gap_blanks (by decide)) ⟨[], [[53]], [], rfl, rfl, Or.inl rfl, by decide, by decide, by decide, by decide, by decide, by decide⟩ ?_
  refine Lay.next (g := []) (b := [46]) (gap_blanks (by decide)) rfl ?_
  refine Lay.next (g := [10]) (b := [62, 62]) (gap_blanks (by decide)) (word_written (cs := ['>', '>']) (by decide) (by decide)) ?_
  refine Lay.next (g := [32]) (b := [101]) (gap_blanks (by decide)) (word_written (cs := ['e']) (by decide) (by decide)) ?_
  refine Lay.next (g := [32]) (b := [58, 61]) (gap_blanks (by decide)) (Or.inl rfl) ?_
  refine Lay.next (g := [32]) (b := [78, 111, 110, 101]) (gap_blanks (by decide)) (word_written (cs := ['N', 'o', 'n', 'e']) (by decide) (by decide)) ?_
  refine Lay.next (g := []) (b := [46]) (gap_blanks (by decide)) rfl ?_
  refine Lay.next (g := [10]) (b := [123]) (gap_blanks (by decide)) rfl ?_
  refine Lay.next (g := [10, 32, 32]) (b := [116, 104, 105, 115, 45, 116, 97, 115, 107]) (gap_blanks (by decide)) (word_written (cs := ['t', 'h', 'i', 's', '-', 't', 'a', 's', 'k']) (by decide) (by decide)) ?_
  refine Lay.next (g := [32]) (b := [101, 114, 114, 111, 114]) (gap_blanks (by decide)) (word_written (cs := ['e', 'r', 'r', 'o', 'r']) (by decide) (by decide)) ?_
  refine Lay.next (g := []) (b := [58]) (gap_blanks (by decide)) ⟨rfl, by decide⟩ ?_
  refine Lay.next (g := [32]) (b := [91, 39, 98, 97, 100, 39, 93]) (gap_blanks (by decide)) ⟨rfl, Nested.byte (by decide) (by decide) (Nested.byte (by decide) (by decide) (Nested.byte (by decide) (by decide) (Nested.nil _)))⟩ ?_
  refine Lay.next (g := []) (b := [46]) (gap_blanks (by decide)) rfl ?_
  refine Lay.next (g := [10, 32, 32]) (b := [120]) (gap_blanks (by decide)) (word_written (cs := ['x']) (by decide) (by decide)) ?_
  refine Lay.next (g := [32]) (b := [58, 61]) (gap_blanks (by decide)) (Or.inl rfl) ?_
  refine Lay.next (g := [32]) (b := [48]) (gap_blanks (by decide)) ⟨[], [[48]], [], rfl, rfl, Or.inl rfl, by decide, by decide, by decide, by decide, by decide, by decide⟩ ?_
  refine Lay.next (g := []) (b := [46]) (gap_blanks (by decide)) rfl ?_
  refine Lay.next (g := [10]) (b := [125]) (gap_blanks (by decide)) rfl ?_
  refine Lay.next (g := [32]) (b := [101, 120, 99, 101, 112, 116]) (gap_blanks (by decide)) (word_written (cs := ['e', 'x', 'c', 'e', 'p', 't']) (by decide) (by decide)) ?_
  refine Lay.next (g := []) (b := [58]) (gap_blanks (by decide)) ⟨rfl, by decide⟩ ?_
  refine Lay.next (g := [32]) (b := [123]) (gap_blanks (by decide)) rfl ?_
  refine Lay.next (g := []) (b := [58]) (gap_blanks (by decide)) ⟨rfl, by decide⟩ ?_
  refine Lay.next (g := []) (b := [116]) (gap_blanks (by decide)) (word_written (cs := ['t']) (by decide) (by decide)) ?_
  refine Lay.next (g := [32]) (b := [101]) (gap_blanks (by decide)) (word_written (cs := ['e']) (by decide) (by decide)) ?_
  refine Lay.next (g := [32]) (b := [58, 61]) (gap_blanks (by decide)) (Or.inl rfl) ?_
  refine Lay.next (g := [32]) (b := [116]) (gap_blanks (by decide)) (word_written (cs := ['t']) (by decide) (by decide)) ?_
  refine Lay.next (g := [32]) (b := [43]) (gap_blanks (by decide)) (word_written (cs := ['+']) (by decide) (by decide)) ?_
  refine Lay.next (g := [32]) (b := [91, 39, 33, 39, 93]) (gap_blanks (by decide)) ⟨rfl, Nested.byte (by decide) (by decide) (Nested.nil _)⟩ ?_
  refine Lay.next (g := []) (b := [46]) (gap_blanks (by decide)) rfl ?_
  refine Lay.next (g := [32]) (b := [125]) (gap_blanks (by decide)) rfl ?_
  refine Lay.next (g := []) (b := [44]) (gap_blanks (by decide)) rfl ?_
  refine Lay.next (g := [32]) (b := [115, 116, 97, 114, 116]) (gap_blanks (by decide)) (word_written (cs := ['s', 't', 'a', 'r', 't']) (by decide) (by decide)) ?_
  refine Lay.next (g := []) (b := [46]) (gap_blanks (by decide)) rfl ?_
  exact Lay.done (g := [10]) (gap_blanks (by decide))

/-- A program that ends with an error
```
    >> x := 1.
    { x := 2. } error: ['bad'].
    x := 3.
``` -/
def failing : List UInt8 :=
  [62, 62, 32, 120, 32, 58, 61, 32, 49, 46, 10, 123, 32, 120, 32, 58, 61, 32, 50, 46, 32, 125, 32, 101, 114, 114, 111, 114, 58, 32, 91, 39, 98, 97, 100, 39, 93, 46, 10, 120, 32, 58, 61, 32, 51, 46, 10]

/-- Its tree. -/
def failingTree : List Node :=
  [.assign (.ref 2 [120]) (.num [49]),
   .msg (.block [] [.assign (.ref 0 [120]) (.num [50])]) [.kw [[101, 114, 114, 111, 114]] [.str [98, 97, 100]]],
   .assign (.ref 0 [120]) (.num [51])]

theorem failing_lexemes : lexStmts Spec.english failingTree =
    [.word [62, 62], .word [120], .assign, .num [49], .eol, .bopen, .word [120], .assign, .num [50], .eol, .bclose, .word [101, 114, 114, 111, 114], .colon, .lit [98, 97, 100], .eol, .word [120], .assign, .num [51], .eol] := by
  unfold failingTree
  simp only [lexStmts, lexemes, lexMsgs, lexArgs]
  rfl

theorem failing_lay : Lay Spec.english (lexStmts Spec.english failingTree) failing := by
  rw [failing_lexemes]
  unfold failing
  refine Lay.next (g := []) (b := [62, 62]) (gap_blanks (by decide)) (word_written (cs := ['>', '>']) (by decide) (by decide)) ?_
  refine Lay.next (g := [32]) (b := [120]) (gap_blanks (by decide)) (word_written (cs := ['x']) (by decide) (by decide)) ?_
  refine Lay.next (g := [32]) (b := [58, 61]) (gap_blanks (by decide)) (Or.inl rfl) ?_
  refine Lay.next (g := [32]) (b := [49]) (gap_blanks (by decide)) ⟨[], [[49]], [], rfl, rfl, Or.inl rfl, by decide, by decide, by decide, by decide, by decide, by decide⟩ ?_
  refine Lay.next (g := []) (b := [46]) (gap_blanks (by decide)) rfl ?_
  refine Lay.next (g := [10]) (b := [123]) (gap_blanks (by decide)) rfl ?_
  refine Lay.next (g := [32]) (b := [120]) (gap_blanks (by decide)) (word_written (cs := ['x']) (by decide) (by decide)) ?_
  refine Lay.next (g := [32]) (b := [58, 61]) (gap_blanks (by decide)) (Or.inl rfl) ?_
  refine Lay.next (g := [32]) (b := [50]) (gap_blanks (by decide)) ⟨[], [[50]], [], rfl, rfl, Or.inl rfl, by decide, by decide, by decide, by decide, by decide, by decide⟩ ?_
  refine Lay.next (g := []) (b := [46]) (gap_blanks (by decide)) rfl ?_
  refine Lay.next (g := [32]) (b := [125]) (gap_blanks (by decide)) rfl ?_
  refine Lay.next (g := [32]) (b := [101, 114, 114, 111, 114]) (gap_blanks (by decide)) (word_written (cs := ['e', 'r', 'r', 'o', 'r']) (by decide) (by decide)) ?_
  refine Lay.next (g := []) (b := [58]) (gap_blanks (by decide)) ⟨rfl, by decide⟩ ?_
  refine Lay.next (g := [32]) (b := [91, 39, 98, 97, 100, 39, 93]) (gap_blanks (by decide)) ⟨rfl, Nested.byte (by decide) (by decide) (Nested.byte (by decide) (by decide) (Nested.byte (by decide) (by decide) (Nested.nil _)))⟩ ?_
  refine Lay.next (g := []) (b := [46]) (gap_blanks (by decide)) rfl ?_
  refine Lay.next (g := [10]) (b := [120]) (gap_blanks (by decide)) (word_written (cs := ['x']) (by decide) (by decide)) ?_
  refine Lay.next (g := [32]) (b := [58, 61]) (gap_blanks (by decide)) (Or.inl rfl) ?_
  refine Lay.next (g := [32]) (b := [51]) (gap_blanks (by decide)) ⟨[], [[51]], [], rfl, rfl, Or.inl rfl, by decide, by decide, by decide, by decide, by decide, by decide⟩ ?_
  refine Lay.next (g := []) (b := [46]) (gap_blanks (by decide)) rfl ?_
  exact Lay.done (g := [10]) (gap_blanks (by decide))

/-- Result, variables and things at the end. -/
def outcome (W : Words) (n : Nat) (es : List Node) : Option (Except Sig Unit × Frame × List Ob) :=
  match Spec.Objects.stmts (Spec.Objects.exec W n) es (Spec.Objects.start W) with
  | some (x, ⟨[f], l, _, _⟩) => some (x.map (fun _ => ()), f, l)
  | _ => none

theorem ends_of {W : Words} {n : Nat} {es : List Node} {r : Except Sig Unit} {f : Frame} {l : List Ob}
    (h : outcome W n es = some (r, f, l)) : Ends W es r f l := by
  unfold outcome at h
  split at h
  · rename_i x g k ru ag e
    obtain ⟨rfl, h2⟩ := Prod.mk.inj (Option.some.inj h)
    obtain ⟨rfl, rfl⟩ := Prod.mk.inj h2
    exact ⟨n, x, _, e, rfl, rfl, rfl⟩
  · cases h

/-- Numbers and texts that are the same. -/
def same : Option V → V → Bool
  | some (.num a), .num b => decide (a = b)
  | some (.text a), .text b => decide (a = b)
  | _, _ => false

theorem of_same {v : Option V} {w : V} (h : same v w = true) : v = some w := by
  unfold same at h
  split at h
  · rw [of_decide_eq_true h]
  · rw [of_decide_eq_true h]
  · cases h

/-- The program ends without an error, and the variable has this number or text as its value. -/
def gives (W : Words) (n : Nat) (es : List Node) (x : List UInt8) (v : V) : Bool :=
  match outcome W n es with
  | some (.ok _, f, _) => same (f x) v
  | _ => false

theorem of_gives {W : Words} {n : Nat} {es : List Node} {x : List UInt8} {v : V} (h : gives W n es x v = true) :
    ∃ f l, Ends W es (.ok ()) f l ∧ f x = some v := by
  unfold gives at h
  split at h
  · rename_i f l e
    exact ⟨f, l, ends_of e, of_same h⟩
  · cases h

/-- The program ends with this error, and the variable has this number or text as its value. -/
def raises (W : Words) (n : Nat) (es : List Node) (t x : List UInt8) (v : V) : Bool :=
  match outcome W n es with
  | some (.error (.err (some u)), f, _) => decide (u = t) && same (f x) v
  | _ => false

theorem of_raises {W : Words} {n : Nat} {es : List Node} {t x : List UInt8} {v : V} (h : raises W n es t x v = true) :
    ∃ f l, Ends W es (.error (.err (some t))) f l ∧ f x = some v := by
  unfold raises at h
  split at h
  · rename_i u f l e
    obtain ⟨h1, h2⟩ := (Bool.and_eq_true _ _).mp h
    obtain rfl := of_decide_eq_true h1
    exact ⟨f, l, ends_of e, of_same h2⟩
  · cases h

/-- At the end of the example `x` is 26, `y` is 120 and `e` is the text `bad!`. -/
theorem demo_gives : gives Spec.Objects.english 60 demoTree [120] (.num 26) = true ∧
    gives Spec.Objects.english 60 demoTree [121] (.num 120) = true ∧
    gives Spec.Objects.english 60 demoTree [101] (.text [98, 97, 100, 33]) = true := by
  decide +kernel

/-- The other program ends with the error `bad` while `x` is 1. -/
theorem failing_raises : raises Spec.Objects.english 20 failingTree [98, 97, 100] [120] (.num 1) = true := by
  decide +kernel

/-! ## C103 -/

/-- What the user finds in a variable; `a` are the objects that are the things of the program. -/
def Is (I : List UInt8 → Nat) (a : List Nat) (s : St) (o : Nat) : V → Prop
  | .num z => (s.obj o).val = .num z
  | .bool b => (s.obj o).val = .bool b
  | .text t => (s.obj o).val = .str (I t)
  | .nothing => (s.obj o).val = .nil
  | .ref i => a[i]? = some o
  | .root => o = Model.Interp.objectP
  | .list => o = Model.Interp.arrP
  | .other => True

/-- The variables of an object are these, with these values. -/
def Variables (I : List UInt8 → Nat) (a : List Nat) (s : St) (o : Nat) (f : Frame) : Prop :=
  ∀ k, match f k with
    | some v => ∃ x, getp (s.obj o).props (I k) = some x ∧ Is I a s x v
    | none => getp (s.obj o).props (I k) = none

/-- What the user finds in a thing: of a block its code and its block for errors, of an object what it was made from, its own
variables and its methods, of a sequence its elements. -/
def Thing (I : List UInt8 → Nat) (W : Words) (a : List Nat) (s : St) (o : Nat) : Ob → Prop
  | .block ps b h bound => (s.obj o).val = .code (ps.map I) (lowerAll I W.toWords b) ∧ (s.obj o).selfbind = bound ∧
      getp (s.obj o).props Model.Interp.nCatch = h.bind (a[·]?) ∧ (h.isSome = true → (h.bind (a[·]?)).isSome = true)
  | .obj p own ms => (s.obj o).val = .obj ∧
      (s.obj o).link = (match p with | none => some Model.Interp.objectP | some q => a[q]?) ∧ (s.obj o).link.isSome = true ∧
      Variables I a s o own ∧
      ∀ k, getp (s.obj o).meths (I k) = (ms k).bind (a[·]?) ∧ ((ms k).isSome = true → ((ms k).bind (a[·]?)).isSome = true)
  | .seq vs => ∃ l, (s.obj o).val = .arr l ∧ l.length = vs.length ∧
      ∀ (i : Nat) (v : V), vs[i]? = some v → ∃ x, l[i]? = some x ∧ Is I a s x v

/-- The result of the program: no error, or an error with this text (any text of the interpreter, if it is not given). -/
def Result (I : List UInt8 → Nat) (s : St) : Except Sig Unit → Prop
  | .ok _ => s.flow = none
  | .error .brk => s.flow = some .brk
  | .error .cont => s.flow = some .cont
  | .error (.err (some t)) => ∃ e, s.flow = some (.err e) ∧ (s.obj e).val = .str (I t)
  | .error (.err none) => ∃ e k, s.flow = some (.err e) ∧ (s.obj e).val = .str k

/-- The words can be told apart. -/
def Distinct (W : Words) : Prop :=
  [W.plus, W.minus, W.times, W.star, W.less, W.greater, W.atMost, W.atLeast, W.equal, W.unequal, W.modulo, W.absolute, W.over, W.slash].Nodup ∧
  [W.ifTrue, W.ifFalse, W.otherwise, W.stop, W.next, W.not, W.and, W.or, W.equal, W.unequal].Nodup ∧
  [W.start, W.apply, W.applyAnd, W.times, W.star, W.whileTrue, W.error, W.except].Nodup ∧
  [W.new, W.onDo, W.recursive].Nodup ∧ [W.plus, W.equal].Nodup ∧
  [W.new, W.newWith, W.append, W.semicolon, W.count, W.position, W.each].Nodup ∧
  W.me ≠ W.my ∧ W.me ≠ W.task ∧ W.my ≠ W.task

instance (W : Words) : Decidable (Distinct W) := by unfold Distinct; infer_instance

section
variable {I : List UInt8 → Nat} {W : Words} {s0 s : St} {st : Spec.Objects.State} {a : List Nat} {o : Nat}

theorem is_of_holds (hw : World I W s0) (hr : Rep I W s0 a s st) {v : V} (h : Holds I a s.obj s.fresh o v) : Is I a s o v := by
  cases v with
  | num z => simp only [Is, h.2]
  | bool b =>
    have ho : o = if b then Model.Interp.trueO else Model.Interp.falseO := h
    simp only [Is, ho, hr.bools hw b]
  | text t => simp only [Is, h.2]
  | nothing =>
    obtain rfl : o = Model.Interp.nilO := h
    have := hw.size
    simp only [Is, hr.low Model.Interp.nilO (by show 0 < _; omega) (by decide), hw.nothing]
  | other => trivial
  | _ => exact h

theorem all_of_holds (hw : World I W s0) (hr : Rep I W s0 a s st) : ∀ {l : List Nat} {vs : List V}, HoldsAll I a s.obj s.fresh l vs →
    l.length = vs.length ∧ ∀ (i : Nat) (v : V), vs[i]? = some v → ∃ x, l[i]? = some x ∧ Is I a s x v
  | [], [], _ => ⟨rfl, fun i v h => by simp at h⟩
  | x :: l, w :: vs, h => by
    obtain ⟨h1, h2⟩ := all_of_holds hw hr h.2
    refine ⟨congrArg (· + 1) h1, fun i v hv => ?_⟩
    cases i with
    | zero =>
      obtain rfl := Option.some.inj (show some w = some v from hv)
      exact ⟨x, rfl, is_of_holds hw hr h.1⟩
    | succ i => exact h2 i v hv
  | [], _ :: _, h => h.elim
  | _ :: _, [], h => h.elim

theorem variables_of_binds (hw : World I W s0) (hr : Rep I W s0 a s st) {f : Frame} (h : Binds I a s.obj s.fresh o f) :
    Variables I a s o f := by
  intro k
  have hk := h k
  split
  · rename_i v hv
    rw [hv] at hk
    obtain ⟨x, h1, h2⟩ := hk
    exact ⟨x, h1, is_of_holds hw hr h2⟩
  · rename_i hv
    rw [hv] at hk
    exact hk

theorem thing_of_like (hw : World I W s0) (hr : Rep I W s0 a s st) {ob : Ob} (h : Like I W a s.obj s.fresh o ob) : Thing I W a s o ob := by
  cases ob with
  | block ps b hd bound =>
    obtain ⟨l, h1, h2⟩ := h
    refine ⟨by rw [h1], by rw [h1], ?_⟩
    rw [h1]
    cases hd with
    | none =>
      obtain rfl : l = [] := h2
      exact ⟨rfl, fun h => nomatch h⟩
    | some x =>
      obtain ⟨c, h3, rfl⟩ := h2
      refine ⟨?_, fun _ => ?_⟩
      · simp only [getp, if_true, Option.bind_some, h3]
      · simp only [Option.bind_some, h3, Option.isSome_some]
  | obj p own ms =>
    obtain ⟨h1, _, h3, h4, h5⟩ := h
    refine ⟨h1, ?_, ?_, variables_of_binds hw hr h4, fun k => ?_⟩
    · cases p with
      | none => exact h3
      | some q =>
        obtain ⟨c, h6, h7⟩ := h3
        exact h7.trans h6.symm
    · cases p with
      | none => rw [show (s.obj o).link = _ from h3]; rfl
      | some q =>
        obtain ⟨c, h6, h7⟩ := h3
        rw [h7]; rfl
    · have hk := h5 k
      cases hm : ms k with
      | none =>
        rw [hm] at hk
        exact ⟨hk, fun h => nomatch h⟩
      | some f =>
        rw [hm] at hk
        obtain ⟨c, h6, h7⟩ := hk
        simp only [Option.bind_some, h6, h7, Option.isSome_some, true_and]
        exact fun _ => trivial
  | seq vs =>
    obtain ⟨l, h1, h2⟩ := h
    exact ⟨l, by rw [h1], all_of_holds hw hr h2⟩

end

/-- C103, for any world in which numbers, Booleans, blocks, objects, texts and sequences know their messages. -/
theorem C103_world (d : Dict) (hd : GoodDict d) (I : List UInt8 → Nat) (D : Nat → Option (List UInt8)) (W : Words)
    (hN : Names I W.toWords) (hD : ∀ t, D (I t) = some t) (hs : W.sign = d.param) (s0 : St)
    (hw : World I W s0) (es : List Node) (prg : List UInt8) (hg : gramStmts d es = true) (hl : Lay d (lexStmts d es) prg)
    (hf : fewStmts es = true) (r : Except Sig Unit) (f : Frame) (l : List Ob) (he : Ends W es r f l) :
    ∃ a s' o N, (∀ n, N ≤ n → main d I D W n prg s0 = .ok (s', o)) ∧ Result I s' r ∧
      (∀ x, match f x with
        | some v => ∃ o, find { s' with flow := none } (I x) = ({ s' with flow := none }, o) ∧ Is I a s' o v
        | none => (find { s' with flow := none } (I x)).1.flow.isSome = true) ∧
      a.Nodup ∧ a.length = l.length ∧ ∀ (i : Nat) (ob : Ob), l[i]? = some ob → ∃ o, a[i]? = some o ∧ Thing I W a s' o ob := by
  obtain ⟨a, s', o, st, ⟨N, h1⟩, h2, h3, h4, h5⟩ := sim_program hN hD hw hf he
  refine ⟨a, s', o, N, fun n hn => ?_, ?_, fun x => ?_, h2.nodup, by rw [← h4]; exact h2.length, fun i ob hi => ?_⟩
  · obtain ⟨ps, _, hp⟩ := Parser.C34 d hd es prg hg hl
    have hW : ({ W.toWords with sign := d.param } : Spec.Program.Words) = W.toWords := by rw [← hs]
    unfold main
    rw [hp, hW]
    exact h1 n hn
  · rcases r with (_ | _ | t) | _
    · exact h5
    · exact h5
    · obtain ⟨e, h6, _, h7⟩ := h5
      cases t with
      | none =>
        obtain ⟨k, h8⟩ := h7
        exact ⟨e, k, h6, by rw [h8]⟩
      | some t => exact ⟨e, h6, by rw [h7]⟩
    · exact h5
  · have hb := scopes_find (k := x) h2.scopes
    rw [h3] at hb
    have hx : Spec.Objects.lookup [f] x = f x := by
      simp only [Spec.Objects.lookup]
      cases f x <;> rfl
    rw [hx] at hb
    split
    · rename_i v hv
      rw [hv] at hb
      obtain ⟨o, h6, h7⟩ := hb
      refine ⟨o, ?_, is_of_holds hw h2 h7⟩
      simp only [find, Option.isSome_none, Bool.false_eq_true, if_false, h6]
    · rename_i hv
      rw [hv] at hb
      have hk := findIn_none hb Model.Interp.worldO (List.mem_of_getLast? h2.bottom)
      simp only [find, Option.isSome_none, Bool.false_eq_true, if_false, show Model.Interp.findIn s'.obj s'.ctxs (I x) = none from hb, hk]
      rfl
  · rw [← h4] at hi
    obtain ⟨o, h6, h7⟩ := h2.thing hi
    exact ⟨o, h6, thing_of_like hw h2 h7⟩

example : ∃ f l, GoodDict Spec.english ∧ Names (intern Spec.Objects.english.toWords) Spec.Objects.english.toWords ∧
    (∀ t, unintern Spec.Objects.english (intern Spec.Objects.english.toWords t) = some t) ∧
    World (intern Spec.Objects.english.toWords) Spec.Objects.english (start (intern Spec.Objects.english.toWords) Spec.Objects.english) ∧
    gramStmts Spec.english demoTree = true ∧ Lay Spec.english (lexStmts Spec.english demoTree) demo ∧ fewStmts demoTree = true ∧
    Ends Spec.Objects.english demoTree (.ok ()) f l ∧ f [120] = some (.num 26) := by
  obtain ⟨f, l, h1, h2⟩ := of_gives demo_gives.1
  have hn := intern_names Spec.Objects.english.toWords (by decide) (by decide) (by decide)
  exact ⟨f, l, by decide, hn, unintern_intern _, world_start hn.inj (by decide) (by decide) (by decide) (by decide) (by decide) (by decide),
    by decide +kernel, demo_lay, by decide +kernel, h1, h2⟩

/-- C103: take a program text in any layout that has a meaning. If by the meaning of its words it ends with a certain result,
variables and things, then the parser accepts it, the interpreter executes it to its end, the result is no error or the error it
should be, the variables have the values they should have, no other names are known, and the things — blocks, objects with their own
variables and methods, sequences — are as they should be, each an object of its own. -/
theorem C103 (d : Dict) (hd : GoodDict d) (W : Words) (hW : Distinct W) (hs : W.sign = d.param)
    (es : List Node) (prg : List UInt8) (hg : gramStmts d es = true) (hl : Lay d (lexStmts d es) prg)
    (hf : fewStmts es = true) (r : Except Sig Unit) (f : Frame) (l : List Ob) (he : Ends W es r f l) :
    ∃ a s' o N, (∀ n, N ≤ n → main d (intern W.toWords) (unintern W) W n prg (start (intern W.toWords) W) = .ok (s', o)) ∧
      Result (intern W.toWords) s' r ∧
      (∀ x, match f x with
        | some v => ∃ o, find { s' with flow := none } (intern W.toWords x) = ({ s' with flow := none }, o) ∧ Is (intern W.toWords) a s' o v
        | none => (find { s' with flow := none } (intern W.toWords x)).1.flow.isSome = true) ∧
      a.Nodup ∧ a.length = l.length ∧
      ∀ (i : Nat) (ob : Ob), l[i]? = some ob → ∃ o, a[i]? = some o ∧ Thing (intern W.toWords) W a s' o ob := by
  obtain ⟨h1, h2, h3, h4, h5, h6, h7, h8, h9⟩ := hW
  have hn := intern_names W.toWords h7 h8 h9
  exact C103_world d hd _ _ W hn (unintern_intern W) hs _ (world_start hn.inj h1 h2 h3 h4 h5 h6) es prg hg hl hf r f l he

example : ∃ f l, GoodDict Spec.english ∧ Distinct Spec.Objects.english ∧ Spec.Objects.english.sign = Spec.english.param ∧
    gramStmts Spec.english demoTree = true ∧ Lay Spec.english (lexStmts Spec.english demoTree) demo ∧ fewStmts demoTree = true ∧
    Ends Spec.Objects.english demoTree (.ok ()) f l ∧ f [101] = some (.text [98, 97, 100, 33]) := by
  obtain ⟨f, l, h1, h2⟩ := of_gives demo_gives.2.2
  exact ⟨f, l, by decide, by decide, rfl, by decide +kernel, demo_lay, by decide +kernel, h1, h2⟩

example : ∃ f l, gramStmts Spec.english failingTree = true ∧ Lay Spec.english (lexStmts Spec.english failingTree) failing ∧
    fewStmts failingTree = true ∧ Ends Spec.Objects.english failingTree (.error (.err (some [98, 97, 100]))) f l ∧
    f [120] = some (.num 1) := by
  obtain ⟨f, l, h1, h2⟩ := of_raises failing_raises
  exact ⟨f, l, by decide +kernel, failing_lay, by decide +kernel, h1, h2⟩

end Verif.Props.Objects
