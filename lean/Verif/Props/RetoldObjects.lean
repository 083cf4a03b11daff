import Verif.Lemmas.RetoldObjects
import Verif.Props.Objects
import Verif.Props.Retold

/-!
# C104: a translated program with objects, texts, sequences and errors computes the same
-/

namespace Verif.Props.RetoldObjects
open Verif (Out)
open Verif.Model.Objects
open Verif.Model.Program (intern)
open Verif.Model.Interp (find)
open Verif.Model.Trans (Loaded load)
open Verif.Model.TransProg (program)
open Verif.Spec (Dict Node DLine english dictFile)
open Verif.Spec.Lexer Verif.Spec.Parser Verif.Spec.Retell
open Verif.Spec.Program (fewStmts selector)
open Verif.Spec.Objects (Words V Frame Ob Sig Ends)
open Verif.Spec.Retold (usesAll fewStmts_tr)
open Verif.Spec.RetoldObjects
open Verif.Lemmas.TransProg
open Verif.Props.Parser (word_written)
open Verif.Props.Trans (plains_of)
open Verif.Props.TransProg (ukrainian laid_next relaid_next)
open Verif.Props.Objects (Is Thing Result Distinct gives of_gives raises of_raises)

/-! ## An example: from English to Ukrainian -/

/-- The words of the Ukrainian dictionary, `i18n/uk/dictionary.h`, like `Spec.Objects.english`. -/
def ukWords : Words where
  toWords := { Retold.ukWords with others := [[208, 145, 209, 131, 208, 187, 208, 181, 208, 178, 208, 176], [208, 157, 208, 190, 208, 188, 208, 181, 209, 128], [208, 162, 208, 181, 208, 186, 209, 129, 209, 130], [208, 151, 208, 176, 208, 178, 208, 180, 208, 176, 208, 189, 208, 189, 209, 143]] }
  over := [195, 183]
  slash := [47]
  new := [208, 189, 208, 190, 208, 178, 209, 150]
  onDo := [111, 110, 58, 100, 111, 58]
  recursive := [209, 128, 208, 181, 208, 186, 209, 131, 209, 128, 209, 129, 208, 184, 208, 178, 208, 189, 208, 184, 208, 185]
  error := [208, 191, 208, 190, 208, 188, 208, 184, 208, 187, 208, 186, 208, 176, 58]
  except := [208, 178, 208, 184, 208, 187, 208, 190, 208, 178, 208, 184, 209, 130, 208, 184, 58]
  newWith := [226, 134, 144]
  append := [209, 129, 209, 131, 209, 132, 209, 150, 208, 186, 209, 129, 58]
  semicolon := [59]
  count := [209, 128, 208, 176, 209, 133, 209, 131, 208, 178, 208, 176, 209, 130, 208, 184]
  position := [208, 191, 208, 190, 209, 129, 208, 176, 208, 180, 208, 176, 58]
  each := [208, 186, 208, 190, 208, 182, 208, 181, 208, 189, 58]
  object := [208, 158, 208, 177, 226, 128, 153, 209, 148, 208, 186, 209, 130]
  sequence := [208, 161, 208, 191, 208, 184, 209, 129, 208, 190, 208, 186]
  nothing := [208, 157, 209, 150, 208, 187]

/-- Some lines of a dictionary. -/
def lines4 : List DLine :=
  [⟨116, [46], none, [46]⟩,
   ⟨116, [44], none, [44]⟩,
   ⟨116, [58, 61], none, [226, 137, 148]⟩,
   ⟨116, [58], none, [58]⟩,
   ⟨116, [60, 45], none, [226, 134, 178]⟩,
   ⟨116, [91, 39], none, [226, 128, 152]⟩,
   ⟨116, [39, 93], none, [226, 128, 153]⟩,
   ⟨100, [46], none, [44]⟩,
   ⟨120, [44], none, [46]⟩,
   ⟨116, [62, 62], none, [226, 152, 158]⟩,
   ⟨116, [111, 119, 110], none, [226, 154, 191]⟩,
   ⟨116, [115, 101, 108, 102], none, [226, 155, 143]⟩,
   ⟨116, [115, 117, 109], none, [209, 129, 209, 131, 208, 188, 208, 176]⟩,
   ⟨116, [114, 101, 115, 101, 116], none, [209, 129, 208, 186, 208, 184, 208, 189, 209, 131, 209, 130, 208, 184]⟩,
   ⟨116, [116, 104, 105, 115, 45, 116, 97, 115, 107], none, [209, 134, 208, 181, 208, 185, 226, 128, 137, 208, 177, 208, 187, 208, 190, 208, 186, 226, 128, 137, 208, 186, 208, 190, 208, 180, 209, 131]⟩,
   ⟨116, [84, 114, 117, 101], none, [208, 159, 209, 128, 208, 176, 208, 178, 208, 180, 208, 176]⟩,
   ⟨116, [70, 97, 108, 115, 101], none, [208, 159, 208, 190, 208, 188, 208, 184, 208, 187, 208, 186, 208, 190, 208, 178, 208, 184, 208, 185]⟩,
   ⟨116, [79, 98, 106, 101, 99, 116], none, [208, 158, 208, 177, 226, 128, 153, 209, 148, 208, 186, 209, 130]⟩,
   ⟨116, [83, 101, 113, 117, 101, 110, 99, 101], none, [208, 161, 208, 191, 208, 184, 209, 129, 208, 190, 208, 186]⟩,
   ⟨116, [78, 111, 110, 101], none, [208, 157, 209, 150, 208, 187]⟩,
   ⟨116, [66, 111, 111, 108, 101, 97, 110], none, [208, 145, 209, 131, 208, 187, 208, 181, 208, 178, 208, 176]⟩,
   ⟨116, [78, 117, 109, 98, 101, 114], none, [208, 157, 208, 190, 208, 188, 208, 181, 209, 128]⟩,
   ⟨116, [84, 101, 120, 116], none, [208, 162, 208, 181, 208, 186, 209, 129, 209, 130]⟩,
   ⟨116, [84, 97, 115, 107], none, [208, 151, 208, 176, 208, 178, 208, 180, 208, 176, 208, 189, 208, 189, 209, 143]⟩,
   ⟨116, [110, 101, 119], none, [208, 189, 208, 190, 208, 178, 209, 150]⟩,
   ⟨116, [115, 116, 97, 114, 116], none, [208, 177, 209, 150, 208, 179, 208, 176, 209, 130, 208, 184]⟩,
   ⟨116, [97, 100, 100, 58], none, [208, 180, 208, 190, 208, 180, 208, 176, 209, 130, 208, 184, 58]⟩,
   ⟨116, [101, 97, 99, 104, 58], none, [208, 186, 208, 190, 208, 182, 208, 181, 208, 189, 58]⟩,
   ⟨116, [101, 114, 114, 111, 114, 58], none, [208, 191, 208, 190, 208, 188, 208, 184, 208, 187, 208, 186, 208, 176, 58]⟩,
   ⟨116, [101, 120, 99, 101, 112, 116, 58], none, [208, 178, 208, 184, 208, 187, 208, 190, 208, 178, 208, 184, 209, 130, 208, 184, 58]⟩,
   ⟨115, [114, 101, 115, 101, 116], none, [209, 129, 208, 186, 208, 184, 208, 189, 209, 131, 209, 130, 208, 184]⟩,
   ⟨115, [97, 100, 100, 58], none, [208, 180, 208, 190, 208, 180, 208, 176, 209, 130, 208, 184, 58]⟩,
   ⟨115, [115, 117, 109], none, [209, 129, 209, 131, 208, 188, 208, 176]⟩,
   ⟨115, [98, 97, 100], none, [208, 191, 208, 190, 208, 179, 208, 176, 208, 189, 208, 190]⟩]

/-- The translation they give. -/
def words4 : Say := sayOf 58 58 lines4

/-- The pieces of the program
```
    >> counter := Object new.
    counter on: ['reset'] do: { own sum := 0. }.
    counter on: ['add:'] do: {:n own sum := own sum + n. }.
    counter on: ['sum'] do: { <- own sum. }.
    >> c := counter new.
    c reset.
    >> l := Sequence ← 3 ; 4 ; 5.
    l each: {:i :v c add: i * v. }.
    >> x := c sum.
    >> e := None.
    {
      this-task error: ['bad'].
      x := 0.
    } except: {:t e := t + ['!']. }, start.
```
which becomes
```
    ☞ counter ≔ Об’єкт нові.
    counter on: ‘скинути’ do: { ⚿ сума ≔ 0. }.
    counter on: ‘додати:’ do: { :n ⚿ сума ≔ ⚿ сума + n. }.
    counter on: ‘сума’ do: { ↲ ⚿ сума. }.
    ☞ c ≔ counter нові.
    c скинути.
    ☞ l ≔ Список ← 3 ; 4 ; 5.
    l кожен: { :i :v c додати: i * v. }.
    ☞ x ≔ c сума.
    ☞ e ≔ Ніл.
    {
      цей блок коду помилка: ‘погано’.
      x ≔ 0.
    } виловити: { :t e ≔ t + ‘!’. }, бігати.
``` -/
def pieces4 : List Piece :=
  [⟨[], .word [62, 62], [62, 62], [226, 152, 158]⟩,
   ⟨[32], .word [99, 111, 117, 110, 116, 101, 114], [99, 111, 117, 110, 116, 101, 114], [99, 111, 117, 110, 116, 101, 114]⟩,
   ⟨[32], .assign, [58, 61], [226, 137, 148]⟩,
   ⟨[32], .word [79, 98, 106, 101, 99, 116], [79, 98, 106, 101, 99, 116], [208, 158, 208, 177, 226, 128, 153, 209, 148, 208, 186, 209, 130]⟩,
   ⟨[32], .word [110, 101, 119], [110, 101, 119], [208, 189, 208, 190, 208, 178, 209, 150]⟩,
   ⟨[], .eol, [46], [46]⟩,
   ⟨[10], .word [99, 111, 117, 110, 116, 101, 114], [99, 111, 117, 110, 116, 101, 114], [99, 111, 117, 110, 116, 101, 114]⟩,
   ⟨[32], .key true [111, 110] [111, 110], [111, 110], [111, 110]⟩,
   ⟨[], .sign, [58], [58]⟩,
   ⟨[32], .lit [114, 101, 115, 101, 116], [91, 39, 114, 101, 115, 101, 116, 39, 93], [226, 128, 152, 209, 129, 208, 186, 208, 184, 208, 189, 209, 131, 209, 130, 208, 184, 226, 128, 153]⟩,
   ⟨[32], .key false [100, 111] [100, 111], [100, 111], [100, 111]⟩,
   ⟨[], .sign, [58], [58]⟩,
   ⟨[32], .bopen, [123], [123]⟩,
   ⟨[32], .word [111, 119, 110], [111, 119, 110], [226, 154, 191]⟩,
   ⟨[32], .word [115, 117, 109], [115, 117, 109], [209, 129, 209, 131, 208, 188, 208, 176]⟩,
   ⟨[32], .assign, [58, 61], [226, 137, 148]⟩,
   ⟨[32], .num false [48], [48], [48]⟩,
   ⟨[], .eol, [46], [46]⟩,
   ⟨[32], .bclose, [125], [125]⟩,
   ⟨[], .eol, [46], [46]⟩,
   ⟨[10], .word [99, 111, 117, 110, 116, 101, 114], [99, 111, 117, 110, 116, 101, 114], [99, 111, 117, 110, 116, 101, 114]⟩,
   ⟨[32], .key true [111, 110] [111, 110], [111, 110], [111, 110]⟩,
   ⟨[], .sign, [58], [58]⟩,
   ⟨[32], .lit [97, 100, 100, 58], [91, 39, 97, 100, 100, 58, 39, 93], [226, 128, 152, 208, 180, 208, 190, 208, 180, 208, 176, 209, 130, 208, 184, 58, 226, 128, 153]⟩,
   ⟨[32], .key false [100, 111] [100, 111], [100, 111], [100, 111]⟩,
   ⟨[], .sign, [58], [58]⟩,
   ⟨[32], .bopen, [123], [123]⟩,
   ⟨[], .param, [58], [58]⟩,
   ⟨[], .word [110], [110], [110]⟩,
   ⟨[32], .word [111, 119, 110], [111, 119, 110], [226, 154, 191]⟩,
   ⟨[32], .word [115, 117, 109], [115, 117, 109], [209, 129, 209, 131, 208, 188, 208, 176]⟩,
   ⟨[32], .assign, [58, 61], [226, 137, 148]⟩,
   ⟨[32], .word [111, 119, 110], [111, 119, 110], [226, 154, 191]⟩,
   ⟨[32], .word [115, 117, 109], [115, 117, 109], [209, 129, 209, 131, 208, 188, 208, 176]⟩,
   ⟨[32], .word [43], [43], [43]⟩,
   ⟨[32], .word [110], [110], [110]⟩,
   ⟨[], .eol, [46], [46]⟩,
   ⟨[32], .bclose, [125], [125]⟩,
   ⟨[], .eol, [46], [46]⟩,
   ⟨[10], .word [99, 111, 117, 110, 116, 101, 114], [99, 111, 117, 110, 116, 101, 114], [99, 111, 117, 110, 116, 101, 114]⟩,
   ⟨[32], .key true [111, 110] [111, 110], [111, 110], [111, 110]⟩,
   ⟨[], .sign, [58], [58]⟩,
   ⟨[32], .lit [115, 117, 109], [91, 39, 115, 117, 109, 39, 93], [226, 128, 152, 209, 129, 209, 131, 208, 188, 208, 176, 226, 128, 153]⟩,
   ⟨[32], .key false [100, 111] [100, 111], [100, 111], [100, 111]⟩,
   ⟨[], .sign, [58], [58]⟩,
   ⟨[32], .bopen, [123], [123]⟩,
   ⟨[32], .ret, [60, 45], [226, 134, 178]⟩,
   ⟨[32], .word [111, 119, 110], [111, 119, 110], [226, 154, 191]⟩,
   ⟨[32], .word [115, 117, 109], [115, 117, 109], [209, 129, 209, 131, 208, 188, 208, 176]⟩,
   ⟨[], .eol, [46], [46]⟩,
   ⟨[32], .bclose, [125], [125]⟩,
   ⟨[], .eol, [46], [46]⟩,
   ⟨[10], .word [62, 62], [62, 62], [226, 152, 158]⟩,
   ⟨[32], .word [99], [99], [99]⟩,
   ⟨[32], .assign, [58, 61], [226, 137, 148]⟩,
   ⟨[32], .word [99, 111, 117, 110, 116, 101, 114], [99, 111, 117, 110, 116, 101, 114], [99, 111, 117, 110, 116, 101, 114]⟩,
   ⟨[32], .word [110, 101, 119], [110, 101, 119], [208, 189, 208, 190, 208, 178, 209, 150]⟩,
   ⟨[], .eol, [46], [46]⟩,
   ⟨[10], .word [99], [99], [99]⟩,
   ⟨[32], .word [114, 101, 115, 101, 116], [114, 101, 115, 101, 116], [209, 129, 208, 186, 208, 184, 208, 189, 209, 131, 209, 130, 208, 184]⟩,
   ⟨[], .eol, [46], [46]⟩,
   ⟨[10], .word [62, 62], [62, 62], [226, 152, 158]⟩,
   ⟨[32], .word [108], [108], [108]⟩,
   ⟨[32], .assign, [58, 61], [226, 137, 148]⟩,
   ⟨[32], .word [83, 101, 113, 117, 101, 110, 99, 101], [83, 101, 113, 117, 101, 110, 99, 101], [208, 161, 208, 191, 208, 184, 209, 129, 208, 190, 208, 186]⟩,
   ⟨[32], .word [226, 134, 144], [226, 134, 144], [226, 134, 144]⟩,
   ⟨[32], .num false [51], [51], [51]⟩,
   ⟨[32], .word [59], [59], [59]⟩,
   ⟨[32], .num false [52], [52], [52]⟩,
   ⟨[32], .word [59], [59], [59]⟩,
   ⟨[32], .num false [53], [53], [53]⟩,
   ⟨[], .eol, [46], [46]⟩,
   ⟨[10], .word [108], [108], [108]⟩,
   ⟨[32], .key true [101, 97, 99, 104] [208, 186, 208, 190, 208, 182, 208, 181, 208, 189], [101, 97, 99, 104], [208, 186, 208, 190, 208, 182, 208, 181, 208, 189]⟩,
   ⟨[], .sign, [58], [58]⟩,
   ⟨[32], .bopen, [123], [123]⟩,
   ⟨[], .param, [58], [58]⟩,
   ⟨[], .word [105], [105], [105]⟩,
   ⟨[32], .param, [58], [58]⟩,
   ⟨[], .word [118], [118], [118]⟩,
   ⟨[32], .word [99], [99], [99]⟩,
   ⟨[32], .key true [97, 100, 100] [208, 180, 208, 190, 208, 180, 208, 176, 209, 130, 208, 184], [97, 100, 100], [208, 180, 208, 190, 208, 180, 208, 176, 209, 130, 208, 184]⟩,
   ⟨[], .sign, [58], [58]⟩,
   ⟨[32], .word [105], [105], [105]⟩,
   ⟨[32], .word [42], [42], [42]⟩,
   ⟨[32], .word [118], [118], [118]⟩,
   ⟨[], .eol, [46], [46]⟩,
   ⟨[32], .bclose, [125], [125]⟩,
   ⟨[], .eol, [46], [46]⟩,
   ⟨[10], .word [62, 62], [62, 62], [226, 152, 158]⟩,
   ⟨[32], .word [120], [120], [120]⟩,
   ⟨[32], .assign, [58, 61], [226, 137, 148]⟩,
   ⟨[32], .word [99], [99], [99]⟩,
   ⟨[32], .word [115, 117, 109], [115, 117, 109], [209, 129, 209, 131, 208, 188, 208, 176]⟩,
   ⟨[], .eol, [46], [46]⟩,
   ⟨[10], .word [62, 62], [62, 62], [226, 152, 158]⟩,
   ⟨[32], .word [101], [101], [101]⟩,
   ⟨[32], .assign, [58, 61], [226, 137, 148]⟩,
   ⟨[32], .word [78, 111, 110, 101], [78, 111, 110, 101], [208, 157, 209, 150, 208, 187]⟩,
   ⟨[], .eol, [46], [46]⟩,
   ⟨[10], .bopen, [123], [123]⟩,
   ⟨[10, 32, 32], .word [116, 104, 105, 115, 45, 116, 97, 115, 107], [116, 104, 105, 115, 45, 116, 97, 115, 107], [209, 134, 208, 181, 208, 185, 226, 128, 137, 208, 177, 208, 187, 208, 190, 208, 186, 226, 128, 137, 208, 186, 208, 190, 208, 180, 209, 131]⟩,
   ⟨[32], .key true [101, 114, 114, 111, 114] [208, 191, 208, 190, 208, 188, 208, 184, 208, 187, 208, 186, 208, 176], [101, 114, 114, 111, 114], [208, 191, 208, 190, 208, 188, 208, 184, 208, 187, 208, 186, 208, 176]⟩,
   ⟨[], .sign, [58], [58]⟩,
   ⟨[32], .lit [98, 97, 100], [91, 39, 98, 97, 100, 39, 93], [226, 128, 152, 208, 191, 208, 190, 208, 179, 208, 176, 208, 189, 208, 190, 226, 128, 153]⟩,
   ⟨[], .eol, [46], [46]⟩,
   ⟨[10, 32, 32], .word [120], [120], [120]⟩,
   ⟨[32], .assign, [58, 61], [226, 137, 148]⟩,
   ⟨[32], .num false [48], [48], [48]⟩,
   ⟨[], .eol, [46], [46]⟩,
   ⟨[10], .bclose, [125], [125]⟩,
   ⟨[32], .key true [101, 120, 99, 101, 112, 116] [208, 178, 208, 184, 208, 187, 208, 190, 208, 178, 208, 184, 209, 130, 208, 184], [101, 120, 99, 101, 112, 116], [208, 178, 208, 184, 208, 187, 208, 190, 208, 178, 208, 184, 209, 130, 208, 184]⟩,
   ⟨[], .sign, [58], [58]⟩,
   ⟨[32], .bopen, [123], [123]⟩,
   ⟨[], .param, [58], [58]⟩,
   ⟨[], .word [116], [116], [116]⟩,
   ⟨[32], .word [101], [101], [101]⟩,
   ⟨[32], .assign, [58, 61], [226, 137, 148]⟩,
   ⟨[32], .word [116], [116], [116]⟩,
   ⟨[32], .word [43], [43], [43]⟩,
   ⟨[32], .lit [33], [91, 39, 33, 39, 93], [226, 128, 152, 33, 226, 128, 153]⟩,
   ⟨[], .eol, [46], [46]⟩,
   ⟨[32], .bclose, [125], [125]⟩,
   ⟨[], .chain, [44], [44]⟩,
   ⟨[32], .word [115, 116, 97, 114, 116], [115, 116, 97, 114, 116], [208, 177, 209, 150, 208, 179, 208, 176, 209, 130, 208, 184]⟩,
   ⟨[], .eol, [46], [46]⟩]

theorem pieces4_laid : Laid english ukrainian words4 pieces4 [10] := by
  unfold pieces4
  refine laid_next (by decide +kernel) (word_written (cs := ['>', '>']) (by decide +kernel) (by decide +kernel)) (by decide +kernel) (by show ([226, 152, 158] : List UInt8) = _; decide +kernel) ?_
  refine laid_next (by decide +kernel) (word_written (cs := ['c', 'o', 'u', 'n', 't', 'e', 'r']) (by decide +kernel) (by decide +kernel)) (by decide +kernel) (by show ([99, 111, 117, 110, 116, 101, 114] : List UInt8) = _; decide +kernel) ?_
  refine laid_next (by decide +kernel) (.inl rfl) (by decide +kernel) (rfl) ?_
  refine laid_next (by decide +kernel) (word_written (cs := ['O', 'b', 'j', 'e', 'c', 't']) (by decide +kernel) (by decide +kernel)) (by decide +kernel) (by show ([208, 158, 208, 177, 226, 128, 153, 209, 148, 208, 186, 209, 130] : List UInt8) = _; decide +kernel) ?_
  refine laid_next (by decide +kernel) (word_written (cs := ['n', 'e', 'w']) (by decide +kernel) (by decide +kernel)) (by decide +kernel) (by show ([208, 189, 208, 190, 208, 178, 209, 150] : List UInt8) = _; decide +kernel) ?_
  refine laid_next (by decide +kernel) (rfl) (by decide +kernel) (rfl) ?_
  refine laid_next (by decide +kernel) (word_written (cs := ['c', 'o', 'u', 'n', 't', 'e', 'r']) (by decide +kernel) (by decide +kernel)) (by decide +kernel) (by show ([99, 111, 117, 110, 116, 101, 114] : List UInt8) = _; decide +kernel) ?_
  refine laid_next (by decide +kernel) (word_written (cs := ['o', 'n']) (by decide +kernel) (by decide +kernel)) (by decide +kernel) (by show ([111, 110] : List UInt8) = _; decide +kernel) ?_
  refine laid_next (by decide +kernel) (⟨rfl, by decide +kernel⟩) (by decide +kernel) (rfl) ?_
  refine laid_next (by decide +kernel) (⟨by decide +kernel, Nested.byte (by decide +kernel) (by decide +kernel) (Nested.byte (by decide +kernel) (by decide +kernel) (Nested.byte (by decide +kernel) (by decide +kernel) (Nested.byte (by decide +kernel) (by decide +kernel) (Nested.byte (by decide +kernel) (by decide +kernel) (Nested.nil _)))))⟩) (by decide +kernel) (by show ([226, 128, 152, 209, 129, 208, 186, 208, 184, 208, 189, 209, 131, 209, 130, 208, 184, 226, 128, 153] : List UInt8) = _; decide +kernel) ?_
  refine laid_next (by decide +kernel) (word_written (cs := ['d', 'o']) (by decide +kernel) (by decide +kernel)) (by decide +kernel) (by show ([100, 111] : List UInt8) = _; decide +kernel) ?_
  refine laid_next (by decide +kernel) (⟨rfl, by decide +kernel⟩) (by decide +kernel) (rfl) ?_
  refine laid_next (by decide +kernel) (rfl) (by decide +kernel) (rfl) ?_
  refine laid_next (by decide +kernel) (word_written (cs := ['o', 'w', 'n']) (by decide +kernel) (by decide +kernel)) (by decide +kernel) (by show ([226, 154, 191] : List UInt8) = _; decide +kernel) ?_
  refine laid_next (by decide +kernel) (word_written (cs := ['s', 'u', 'm']) (by decide +kernel) (by decide +kernel)) (by decide +kernel) (by show ([209, 129, 209, 131, 208, 188, 208, 176] : List UInt8) = _; decide +kernel) ?_
  refine laid_next (by decide +kernel) (.inl rfl) (by decide +kernel) (rfl) ?_
  refine laid_next (by decide +kernel) (⟨[], [[48]], [], by decide +kernel, by decide +kernel, .inl rfl, by decide +kernel, by decide +kernel, by decide +kernel, by decide +kernel, by decide +kernel, by decide +kernel⟩) (by decide +kernel) (⟨[], [[48]], [], .inl rfl, by decide +kernel, by decide +kernel, by decide +kernel, by decide +kernel⟩) ?_
  refine laid_next (by decide +kernel) (rfl) (by decide +kernel) (rfl) ?_
  refine laid_next (by decide +kernel) (rfl) (by decide +kernel) (rfl) ?_
  refine laid_next (by decide +kernel) (rfl) (by decide +kernel) (rfl) ?_
  refine laid_next (by decide +kernel) (word_written (cs := ['c', 'o', 'u', 'n', 't', 'e', 'r']) (by decide +kernel) (by decide +kernel)) (by decide +kernel) (by show ([99, 111, 117, 110, 116, 101, 114] : List UInt8) = _; decide +kernel) ?_
  refine laid_next (by decide +kernel) (word_written (cs := ['o', 'n']) (by decide +kernel) (by decide +kernel)) (by decide +kernel) (by show ([111, 110] : List UInt8) = _; decide +kernel) ?_
  refine laid_next (by decide +kernel) (⟨rfl, by decide +kernel⟩) (by decide +kernel) (rfl) ?_
  refine laid_next (by decide +kernel) (⟨by decide +kernel, Nested.byte (by decide +kernel) (by decide +kernel) (Nested.byte (by decide +kernel) (by decide +kernel) (Nested.byte (by decide +kernel) (by decide +kernel) (Nested.byte (by decide +kernel) (by decide +kernel) (Nested.nil _))))⟩) (by decide +kernel) (by show ([226, 128, 152, 208, 180, 208, 190, 208, 180, 208, 176, 209, 130, 208, 184, 58, 226, 128, 153] : List UInt8) = _; decide +kernel) ?_
  refine laid_next (by decide +kernel) (word_written (cs := ['d', 'o']) (by decide +kernel) (by decide +kernel)) (by decide +kernel) (by show ([100, 111] : List UInt8) = _; decide +kernel) ?_
  refine laid_next (by decide +kernel) (⟨rfl, by decide +kernel⟩) (by decide +kernel) (rfl) ?_
  refine laid_next (by decide +kernel) (rfl) (by decide +kernel) (rfl) ?_
  refine laid_next (by decide +kernel) (⟨rfl, by decide +kernel⟩) (by decide +kernel) (rfl) ?_
  refine laid_next (by decide +kernel) (word_written (cs := ['n']) (by decide +kernel) (by decide +kernel)) (by decide +kernel) (by show ([110] : List UInt8) = _; decide +kernel) ?_
  refine laid_next (by decide +kernel) (word_written (cs := ['o', 'w', 'n']) (by decide +kernel) (by decide +kernel)) (by decide +kernel) (by show ([226, 154, 191] : List UInt8) = _; decide +kernel) ?_
  refine laid_next (by decide +kernel) (word_written (cs := ['s', 'u', 'm']) (by decide +kernel) (by decide +kernel)) (by decide +kernel) (by show ([209, 129, 209, 131, 208, 188, 208, 176] : List UInt8) = _; decide +kernel) ?_
  refine laid_next (by decide +kernel) (.inl rfl) (by decide +kernel) (rfl) ?_
  refine laid_next (by decide +kernel) (word_written (cs := ['o', 'w', 'n']) (by decide +kernel) (by decide +kernel)) (by decide +kernel) (by show ([226, 154, 191] : List UInt8) = _; decide +kernel) ?_
  refine laid_next (by decide +kernel) (word_written (cs := ['s', 'u', 'm']) (by decide +kernel) (by decide +kernel)) (by decide +kernel) (by show ([209, 129, 209, 131, 208, 188, 208, 176] : List UInt8) = _; decide +kernel) ?_
  refine laid_next (by decide +kernel) (word_written (cs := ['+']) (by decide +kernel) (by decide +kernel)) (by decide +kernel) (by show ([43] : List UInt8) = _; decide +kernel) ?_
  refine laid_next (by decide +kernel) (word_written (cs := ['n']) (by decide +kernel) (by decide +kernel)) (by decide +kernel) (by show ([110] : List UInt8) = _; decide +kernel) ?_
  refine laid_next (by decide +kernel) (rfl) (by decide +kernel) (rfl) ?_
  refine laid_next (by decide +kernel) (rfl) (by decide +kernel) (rfl) ?_
  refine laid_next (by decide +kernel) (rfl) (by decide +kernel) (rfl) ?_
  refine laid_next (by decide +kernel) (word_written (cs := ['c', 'o', 'u', 'n', 't', 'e', 'r']) (by decide +kernel) (by decide +kernel)) (by decide +kernel) (by show ([99, 111, 117, 110, 116, 101, 114] : List UInt8) = _; decide +kernel) ?_
  refine laid_next (by decide +kernel) (word_written (cs := ['o', 'n']) (by decide +kernel) (by decide +kernel)) (by decide +kernel) (by show ([111, 110] : List UInt8) = _; decide +kernel) ?_
  refine laid_next (by decide +kernel) (⟨rfl, by decide +kernel⟩) (by decide +kernel) (rfl) ?_
  refine laid_next (by decide +kernel) (⟨by decide +kernel, Nested.byte (by decide +kernel) (by decide +kernel) (Nested.byte (by decide +kernel) (by decide +kernel) (Nested.byte (by decide +kernel) (by decide +kernel) (Nested.nil _)))⟩) (by decide +kernel) (by show ([226, 128, 152, 209, 129, 209, 131, 208, 188, 208, 176, 226, 128, 153] : List UInt8) = _; decide +kernel) ?_
  refine laid_next (by decide +kernel) (word_written (cs := ['d', 'o']) (by decide +kernel) (by decide +kernel)) (by decide +kernel) (by show ([100, 111] : List UInt8) = _; decide +kernel) ?_
  refine laid_next (by decide +kernel) (⟨rfl, by decide +kernel⟩) (by decide +kernel) (rfl) ?_
  refine laid_next (by decide +kernel) (rfl) (by decide +kernel) (rfl) ?_
  refine laid_next (by decide +kernel) (⟨rfl, by decide +kernel⟩) (by decide +kernel) (rfl) ?_
  refine laid_next (by decide +kernel) (word_written (cs := ['o', 'w', 'n']) (by decide +kernel) (by decide +kernel)) (by decide +kernel) (by show ([226, 154, 191] : List UInt8) = _; decide +kernel) ?_
  refine laid_next (by decide +kernel) (word_written (cs := ['s', 'u', 'm']) (by decide +kernel) (by decide +kernel)) (by decide +kernel) (by show ([209, 129, 209, 131, 208, 188, 208, 176] : List UInt8) = _; decide +kernel) ?_
  refine laid_next (by decide +kernel) (rfl) (by decide +kernel) (rfl) ?_
  refine laid_next (by decide +kernel) (rfl) (by decide +kernel) (rfl) ?_
  refine laid_next (by decide +kernel) (rfl) (by decide +kernel) (rfl) ?_
  refine laid_next (by decide +kernel) (word_written (cs := ['>', '>']) (by decide +kernel) (by decide +kernel)) (by decide +kernel) (by show ([226, 152, 158] : List UInt8) = _; decide +kernel) ?_
  refine laid_next (by decide +kernel) (word_written (cs := ['c']) (by decide +kernel) (by decide +kernel)) (by decide +kernel) (by show ([99] : List UInt8) = _; decide +kernel) ?_
  refine laid_next (by decide +kernel) (.inl rfl) (by decide +kernel) (rfl) ?_
  refine laid_next (by decide +kernel) (word_written (cs := ['c', 'o', 'u', 'n', 't', 'e', 'r']) (by decide +kernel) (by decide +kernel)) (by decide +kernel) (by show ([99, 111, 117, 110, 116, 101, 114] : List UInt8) = _; decide +kernel) ?_
  refine laid_next (by decide +kernel) (word_written (cs := ['n', 'e', 'w']) (by decide +kernel) (by decide +kernel)) (by decide +kernel) (by show ([208, 189, 208, 190, 208, 178, 209, 150] : List UInt8) = _; decide +kernel) ?_
  refine laid_next (by decide +kernel) (rfl) (by decide +kernel) (rfl) ?_
  refine laid_next (by decide +kernel) (word_written (cs := ['c']) (by decide +kernel) (by decide +kernel)) (by decide +kernel) (by show ([99] : List UInt8) = _; decide +kernel) ?_
  refine laid_next (by decide +kernel) (word_written (cs := ['r', 'e', 's', 'e', 't']) (by decide +kernel) (by decide +kernel)) (by decide +kernel) (by show ([209, 129, 208, 186, 208, 184, 208, 189, 209, 131, 209, 130, 208, 184] : List UInt8) = _; decide +kernel) ?_
  refine laid_next (by decide +kernel) (rfl) (by decide +kernel) (rfl) ?_
  refine laid_next (by decide +kernel) (word_written (cs := ['>', '>']) (by decide +kernel) (by decide +kernel)) (by decide +kernel) (by show ([226, 152, 158] : List UInt8) = _; decide +kernel) ?_
  refine laid_next (by decide +kernel) (word_written (cs := ['l']) (by decide +kernel) (by decide +kernel)) (by decide +kernel) (by show ([108] : List UInt8) = _; decide +kernel) ?_
  refine laid_next (by decide +kernel) (.inl rfl) (by decide +kernel) (rfl) ?_
  refine laid_next (by decide +kernel) (word_written (cs := ['S', 'e', 'q', 'u', 'e', 'n', 'c', 'e']) (by decide +kernel) (by decide +kernel)) (by decide +kernel) (by show ([208, 161, 208, 191, 208, 184, 209, 129, 208, 190, 208, 186] : List UInt8) = _; decide +kernel) ?_
  refine laid_next (by decide +kernel) (word_written (cs := ['←']) (by decide +kernel) (by decide +kernel)) (by decide +kernel) (by show ([226, 134, 144] : List UInt8) = _; decide +kernel) ?_
  refine laid_next (by decide +kernel) (⟨[], [[51]], [], by decide +kernel, by decide +kernel, .inl rfl, by decide +kernel, by decide +kernel, by decide +kernel, by decide +kernel, by decide +kernel, by decide +kernel⟩) (by decide +kernel) (⟨[], [[51]], [], .inl rfl, by decide +kernel, by decide +kernel, by decide +kernel, by decide +kernel⟩) ?_
  refine laid_next (by decide +kernel) (word_written (cs := [';']) (by decide +kernel) (by decide +kernel)) (by decide +kernel) (by show ([59] : List UInt8) = _; decide +kernel) ?_
  refine laid_next (by decide +kernel) (⟨[], [[52]], [], by decide +kernel, by decide +kernel, .inl rfl, by decide +kernel, by decide +kernel, by decide +kernel, by decide +kernel, by decide +kernel, by decide +kernel⟩) (by decide +kernel) (⟨[], [[52]], [], .inl rfl, by decide +kernel, by decide +kernel, by decide +kernel, by decide +kernel⟩) ?_
  refine laid_next (by decide +kernel) (word_written (cs := [';']) (by decide +kernel) (by decide +kernel)) (by decide +kernel) (by show ([59] : List UInt8) = _; decide +kernel) ?_
  refine laid_next (by decide +kernel) (⟨[], [[53]], [], by decide +kernel, by decide +kernel, .inl rfl, by decide +kernel, by decide +kernel, by decide +kernel, by decide +kernel, by decide +kernel, by decide +kernel⟩) (by decide +kernel) (⟨[], [[53]], [], .inl rfl, by decide +kernel, by decide +kernel, by decide +kernel, by decide +kernel⟩) ?_
  refine laid_next (by decide +kernel) (rfl) (by decide +kernel) (rfl) ?_
  refine laid_next (by decide +kernel) (word_written (cs := ['l']) (by decide +kernel) (by decide +kernel)) (by decide +kernel) (by show ([108] : List UInt8) = _; decide +kernel) ?_
  refine laid_next (by decide +kernel) (word_written (cs := ['e', 'a', 'c', 'h']) (by decide +kernel) (by decide +kernel)) (by decide +kernel) (by show ([208, 186, 208, 190, 208, 182, 208, 181, 208, 189] : List UInt8) = _; decide +kernel) ?_
  refine laid_next (by decide +kernel) (⟨rfl, by decide +kernel⟩) (by decide +kernel) (rfl) ?_
  refine laid_next (by decide +kernel) (rfl) (by decide +kernel) (rfl) ?_
  refine laid_next (by decide +kernel) (⟨rfl, by decide +kernel⟩) (by decide +kernel) (rfl) ?_
  refine laid_next (by decide +kernel) (word_written (cs := ['i']) (by decide +kernel) (by decide +kernel)) (by decide +kernel) (by show ([105] : List UInt8) = _; decide +kernel) ?_
  refine laid_next (by decide +kernel) (⟨rfl, by decide +kernel⟩) (by decide +kernel) (rfl) ?_
  refine laid_next (by decide +kernel) (word_written (cs := ['v']) (by decide +kernel) (by decide +kernel)) (by decide +kernel) (by show ([118] : List UInt8) = _; decide +kernel) ?_
  refine laid_next (by decide +kernel) (word_written (cs := ['c']) (by decide +kernel) (by decide +kernel)) (by decide +kernel) (by show ([99] : List UInt8) = _; decide +kernel) ?_
  refine laid_next (by decide +kernel) (word_written (cs := ['a', 'd', 'd']) (by decide +kernel) (by decide +kernel)) (by decide +kernel) (by show ([208, 180, 208, 190, 208, 180, 208, 176, 209, 130, 208, 184] : List UInt8) = _; decide +kernel) ?_
  refine laid_next (by decide +kernel) (⟨rfl, by decide +kernel⟩) (by decide +kernel) (rfl) ?_
  refine laid_next (by decide +kernel) (word_written (cs := ['i']) (by decide +kernel) (by decide +kernel)) (by decide +kernel) (by show ([105] : List UInt8) = _; decide +kernel) ?_
  refine laid_next (by decide +kernel) (word_written (cs := ['*']) (by decide +kernel) (by decide +kernel)) (by decide +kernel) (by show ([42] : List UInt8) = _; decide +kernel) ?_
  refine laid_next (by decide +kernel) (word_written (cs := ['v']) (by decide +kernel) (by decide +kernel)) (by decide +kernel) (by show ([118] : List UInt8) = _; decide +kernel) ?_
  refine laid_next (by decide +kernel) (rfl) (by decide +kernel) (rfl) ?_
  refine laid_next (by decide +kernel) (rfl) (by decide +kernel) (rfl) ?_
  refine laid_next (by decide +kernel) (rfl) (by decide +kernel) (rfl) ?_
  refine laid_next (by decide +kernel) (word_written (cs := ['>', '>']) (by decide +kernel) (by decide +kernel)) (by decide +kernel) (by show ([226, 152, 158] : List UInt8) = _; decide +kernel) ?_
  refine laid_next (by decide +kernel) (word_written (cs := ['x']) (by decide +kernel) (by decide +kernel)) (by decide +kernel) (by show ([120] : List UInt8) = _; decide +kernel) ?_
  refine laid_next (by decide +kernel) (.inl rfl) (by decide +kernel) (rfl) ?_
  refine laid_next (by decide +kernel) (word_written (cs := ['c']) (by decide +kernel) (by decide +kernel)) (by decide +kernel) (by show ([99] : List UInt8) = _; decide +kernel) ?_
  refine laid_next (by decide +kernel) (word_written (cs := ['s', 'u', 'm']) (by decide +kernel) (by decide +kernel)) (by decide +kernel) (by show ([209, 129, 209, 131, 208, 188, 208, 176] : List UInt8) = _; decide +kernel) ?_
  refine laid_next (by decide +kernel) (rfl) (by decide +kernel) (rfl) ?_
  refine laid_next (by decide +kernel) (word_written (cs := ['>', '>']) (by decide +kernel) (by decide +kernel)) (by decide +kernel) (by show ([226, 152, 158] : List UInt8) = _; decide +kernel) ?_
  refine laid_next (by decide +kernel) (word_written (cs := ['e']) (by decide +kernel) (by decide +kernel)) (by decide +kernel) (by show ([101] : List UInt8) = _; decide +kernel) ?_
  refine laid_next (by decide +kernel) (.inl rfl) (by decide +kernel) (rfl) ?_
  refine laid_next (by decide +kernel) (word_written (cs := ['N', 'o', 'n', 'e']) (by decide +kernel) (by decide +kernel)) (by decide +kernel) (by show ([208, 157, 209, 150, 208, 187] : List UInt8) = _; decide +kernel) ?_
  refine laid_next (by decide +kernel) (rfl) (by decide +kernel) (rfl) ?_
  refine laid_next (by decide +kernel) (rfl) (by decide +kernel) (rfl) ?_
  refine laid_next (by decide +kernel) (word_written (cs := ['t', 'h', 'i', 's', '-', 't', 'a', 's', 'k']) (by decide +kernel) (by decide +kernel)) (by decide +kernel) (by show ([209, 134, 208, 181, 208, 185, 226, 128, 137, 208, 177, 208, 187, 208, 190, 208, 186, 226, 128, 137, 208, 186, 208, 190, 208, 180, 209, 131] : List UInt8) = _; decide +kernel) ?_
  refine laid_next (by decide +kernel) (word_written (cs := ['e', 'r', 'r', 'o', 'r']) (by decide +kernel) (by decide +kernel)) (by decide +kernel) (by show ([208, 191, 208, 190, 208, 188, 208, 184, 208, 187, 208, 186, 208, 176] : List UInt8) = _; decide +kernel) ?_
  refine laid_next (by decide +kernel) (⟨rfl, by decide +kernel⟩) (by decide +kernel) (rfl) ?_
  refine laid_next (by decide +kernel) (⟨by decide +kernel, Nested.byte (by decide +kernel) (by decide +kernel) (Nested.byte (by decide +kernel) (by decide +kernel) (Nested.byte (by decide +kernel) (by decide +kernel) (Nested.nil _)))⟩) (by decide +kernel) (by show ([226, 128, 152, 208, 191, 208, 190, 208, 179, 208, 176, 208, 189, 208, 190, 226, 128, 153] : List UInt8) = _; decide +kernel) ?_
  refine laid_next (by decide +kernel) (rfl) (by decide +kernel) (rfl) ?_
  refine laid_next (by decide +kernel) (word_written (cs := ['x']) (by decide +kernel) (by decide +kernel)) (by decide +kernel) (by show ([120] : List UInt8) = _; decide +kernel) ?_
  refine laid_next (by decide +kernel) (.inl rfl) (by decide +kernel) (rfl) ?_
  refine laid_next (by decide +kernel) (⟨[], [[48]], [], by decide +kernel, by decide +kernel, .inl rfl, by decide +kernel, by decide +kernel, by decide +kernel, by decide +kernel, by decide +kernel, by decide +kernel⟩) (by decide +kernel) (⟨[], [[48]], [], .inl rfl, by decide +kernel, by decide +kernel, by decide +kernel, by decide +kernel⟩) ?_
  refine laid_next (by decide +kernel) (rfl) (by decide +kernel) (rfl) ?_
  refine laid_next (by decide +kernel) (rfl) (by decide +kernel) (rfl) ?_
  refine laid_next (by decide +kernel) (word_written (cs := ['e', 'x', 'c', 'e', 'p', 't']) (by decide +kernel) (by decide +kernel)) (by decide +kernel) (by show ([208, 178, 208, 184, 208, 187, 208, 190, 208, 178, 208, 184, 209, 130, 208, 184] : List UInt8) = _; decide +kernel) ?_
  refine laid_next (by decide +kernel) (⟨rfl, by decide +kernel⟩) (by decide +kernel) (rfl) ?_
  refine laid_next (by decide +kernel) (rfl) (by decide +kernel) (rfl) ?_
  refine laid_next (by decide +kernel) (⟨rfl, by decide +kernel⟩) (by decide +kernel) (rfl) ?_
  refine laid_next (by decide +kernel) (word_written (cs := ['t']) (by decide +kernel) (by decide +kernel)) (by decide +kernel) (by show ([116] : List UInt8) = _; decide +kernel) ?_
  refine laid_next (by decide +kernel) (word_written (cs := ['e']) (by decide +kernel) (by decide +kernel)) (by decide +kernel) (by show ([101] : List UInt8) = _; decide +kernel) ?_
  refine laid_next (by decide +kernel) (.inl rfl) (by decide +kernel) (rfl) ?_
  refine laid_next (by decide +kernel) (word_written (cs := ['t']) (by decide +kernel) (by decide +kernel)) (by decide +kernel) (by show ([116] : List UInt8) = _; decide +kernel) ?_
  refine laid_next (by decide +kernel) (word_written (cs := ['+']) (by decide +kernel) (by decide +kernel)) (by decide +kernel) (by show ([43] : List UInt8) = _; decide +kernel) ?_
  refine laid_next (by decide +kernel) (⟨by decide +kernel, Nested.byte (by decide +kernel) (by decide +kernel) (Nested.nil _)⟩) (by decide +kernel) (by show ([226, 128, 152, 33, 226, 128, 153] : List UInt8) = _; decide +kernel) ?_
  refine laid_next (by decide +kernel) (rfl) (by decide +kernel) (rfl) ?_
  refine laid_next (by decide +kernel) (rfl) (by decide +kernel) (rfl) ?_
  refine laid_next (by decide +kernel) (rfl) (by decide +kernel) (rfl) ?_
  refine laid_next (by decide +kernel) (word_written (cs := ['s', 't', 'a', 'r', 't']) (by decide +kernel) (by decide +kernel)) (by decide +kernel) (by show ([208, 177, 209, 150, 208, 179, 208, 176, 209, 130, 208, 184] : List UInt8) = _; decide +kernel) ?_
  refine laid_next (by decide +kernel) (rfl) (by decide +kernel) (rfl) ?_
  trivial

theorem pieces4_relaid : Relaid ukrainian words4 pieces4 [10] := by
  unfold pieces4
  refine relaid_next (word_written (cs := ['☞']) (by decide +kernel) (by decide +kernel)) ?_
  refine relaid_next (word_written (cs := ['c', 'o', 'u', 'n', 't', 'e', 'r']) (by decide +kernel) (by decide +kernel)) ?_
  refine relaid_next (.inl rfl) ?_
  refine relaid_next (word_written (cs := ['О', 'б', '’', 'є', 'к', 'т']) (by decide +kernel) (by decide +kernel)) ?_
  refine relaid_next (word_written (cs := ['н', 'о', 'в', 'і']) (by decide +kernel) (by decide +kernel)) ?_
  refine relaid_next (rfl) ?_
  refine relaid_next (word_written (cs := ['c', 'o', 'u', 'n', 't', 'e', 'r']) (by decide +kernel) (by decide +kernel)) ?_
  refine relaid_next (word_written (cs := ['o', 'n']) (by decide +kernel) (by decide +kernel)) ?_
  refine relaid_next (⟨rfl, by decide +kernel⟩) ?_
  refine relaid_next (⟨by decide +kernel, Nested.byte (by decide +kernel) (by decide +kernel) (Nested.byte (by decide +kernel) (by decide +kernel) (Nested.byte (by decide +kernel) (by decide +kernel) (Nested.byte (by decide +kernel) (by decide +kernel) (Nested.byte (by decide +kernel) (by decide +kernel) (Nested.byte (by decide +kernel) (by decide +kernel) (Nested.byte (by decide +kernel) (by decide +kernel) (Nested.byte (by decide +kernel) (by decide +kernel) (Nested.byte (by decide +kernel) (by decide +kernel) (Nested.byte (by decide +kernel) (by decide +kernel) (Nested.byte (by decide +kernel) (by decide +kernel) (Nested.byte (by decide +kernel) (by decide +kernel) (Nested.byte (by decide +kernel) (by decide +kernel) (Nested.byte (by decide +kernel) (by decide +kernel) (Nested.nil _))))))))))))))⟩) ?_
  refine relaid_next (word_written (cs := ['d', 'o']) (by decide +kernel) (by decide +kernel)) ?_
  refine relaid_next (⟨rfl, by decide +kernel⟩) ?_
  refine relaid_next (rfl) ?_
  refine relaid_next (word_written (cs := ['⚿']) (by decide +kernel) (by decide +kernel)) ?_
  refine relaid_next (word_written (cs := ['с', 'у', 'м', 'а']) (by decide +kernel) (by decide +kernel)) ?_
  refine relaid_next (.inl rfl) ?_
  refine relaid_next (⟨[], [[48]], [], by decide +kernel, by decide +kernel, .inl rfl, by decide +kernel, by decide +kernel, by decide +kernel, by decide +kernel, by decide +kernel, by decide +kernel⟩) ?_
  refine relaid_next (rfl) ?_
  refine relaid_next (rfl) ?_
  refine relaid_next (rfl) ?_
  refine relaid_next (word_written (cs := ['c', 'o', 'u', 'n', 't', 'e', 'r']) (by decide +kernel) (by decide +kernel)) ?_
  refine relaid_next (word_written (cs := ['o', 'n']) (by decide +kernel) (by decide +kernel)) ?_
  refine relaid_next (⟨rfl, by decide +kernel⟩) ?_
  refine relaid_next (⟨by decide +kernel, Nested.byte (by decide +kernel) (by decide +kernel) (Nested.byte (by decide +kernel) (by decide +kernel) (Nested.byte (by decide +kernel) (by decide +kernel) (Nested.byte (by decide +kernel) (by decide +kernel) (Nested.byte (by decide +kernel) (by decide +kernel) (Nested.byte (by decide +kernel) (by decide +kernel) (Nested.byte (by decide +kernel) (by decide +kernel) (Nested.byte (by decide +kernel) (by decide +kernel) (Nested.byte (by decide +kernel) (by decide +kernel) (Nested.byte (by decide +kernel) (by decide +kernel) (Nested.byte (by decide +kernel) (by decide +kernel) (Nested.byte (by decide +kernel) (by decide +kernel) (Nested.byte (by decide +kernel) (by decide +kernel) (Nested.nil _)))))))))))))⟩) ?_
  refine relaid_next (word_written (cs := ['d', 'o']) (by decide +kernel) (by decide +kernel)) ?_
  refine relaid_next (⟨rfl, by decide +kernel⟩) ?_
  refine relaid_next (rfl) ?_
  refine relaid_next (⟨rfl, by decide +kernel⟩) ?_
  refine relaid_next (word_written (cs := ['n']) (by decide +kernel) (by decide +kernel)) ?_
  refine relaid_next (word_written (cs := ['⚿']) (by decide +kernel) (by decide +kernel)) ?_
  refine relaid_next (word_written (cs := ['с', 'у', 'м', 'а']) (by decide +kernel) (by decide +kernel)) ?_
  refine relaid_next (.inl rfl) ?_
  refine relaid_next (word_written (cs := ['⚿']) (by decide +kernel) (by decide +kernel)) ?_
  refine relaid_next (word_written (cs := ['с', 'у', 'м', 'а']) (by decide +kernel) (by decide +kernel)) ?_
  refine relaid_next (word_written (cs := ['+']) (by decide +kernel) (by decide +kernel)) ?_
  refine relaid_next (word_written (cs := ['n']) (by decide +kernel) (by decide +kernel)) ?_
  refine relaid_next (rfl) ?_
  refine relaid_next (rfl) ?_
  refine relaid_next (rfl) ?_
  refine relaid_next (word_written (cs := ['c', 'o', 'u', 'n', 't', 'e', 'r']) (by decide +kernel) (by decide +kernel)) ?_
  refine relaid_next (word_written (cs := ['o', 'n']) (by decide +kernel) (by decide +kernel)) ?_
  refine relaid_next (⟨rfl, by decide +kernel⟩) ?_
  refine relaid_next (⟨by decide +kernel, Nested.byte (by decide +kernel) (by decide +kernel) (Nested.byte (by decide +kernel) (by decide +kernel) (Nested.byte (by decide +kernel) (by decide +kernel) (Nested.byte (by decide +kernel) (by decide +kernel) (Nested.byte (by decide +kernel) (by decide +kernel) (Nested.byte (by decide +kernel) (by decide +kernel) (Nested.byte (by decide +kernel) (by decide +kernel) (Nested.byte (by decide +kernel) (by decide +kernel) (Nested.nil _))))))))⟩) ?_
  refine relaid_next (word_written (cs := ['d', 'o']) (by decide +kernel) (by decide +kernel)) ?_
  refine relaid_next (⟨rfl, by decide +kernel⟩) ?_
  refine relaid_next (rfl) ?_
  refine relaid_next (⟨rfl, by decide +kernel⟩) ?_
  refine relaid_next (word_written (cs := ['⚿']) (by decide +kernel) (by decide +kernel)) ?_
  refine relaid_next (word_written (cs := ['с', 'у', 'м', 'а']) (by decide +kernel) (by decide +kernel)) ?_
  refine relaid_next (rfl) ?_
  refine relaid_next (rfl) ?_
  refine relaid_next (rfl) ?_
  refine relaid_next (word_written (cs := ['☞']) (by decide +kernel) (by decide +kernel)) ?_
  refine relaid_next (word_written (cs := ['c']) (by decide +kernel) (by decide +kernel)) ?_
  refine relaid_next (.inl rfl) ?_
  refine relaid_next (word_written (cs := ['c', 'o', 'u', 'n', 't', 'e', 'r']) (by decide +kernel) (by decide +kernel)) ?_
  refine relaid_next (word_written (cs := ['н', 'о', 'в', 'і']) (by decide +kernel) (by decide +kernel)) ?_
  refine relaid_next (rfl) ?_
  refine relaid_next (word_written (cs := ['c']) (by decide +kernel) (by decide +kernel)) ?_
  refine relaid_next (word_written (cs := ['с', 'к', 'и', 'н', 'у', 'т', 'и']) (by decide +kernel) (by decide +kernel)) ?_
  refine relaid_next (rfl) ?_
  refine relaid_next (word_written (cs := ['☞']) (by decide +kernel) (by decide +kernel)) ?_
  refine relaid_next (word_written (cs := ['l']) (by decide +kernel) (by decide +kernel)) ?_
  refine relaid_next (.inl rfl) ?_
  refine relaid_next (word_written (cs := ['С', 'п', 'и', 'с', 'о', 'к']) (by decide +kernel) (by decide +kernel)) ?_
  refine relaid_next (word_written (cs := ['←']) (by decide +kernel) (by decide +kernel)) ?_
  refine relaid_next (⟨[], [[51]], [], by decide +kernel, by decide +kernel, .inl rfl, by decide +kernel, by decide +kernel, by decide +kernel, by decide +kernel, by decide +kernel, by decide +kernel⟩) ?_
  refine relaid_next (word_written (cs := [';']) (by decide +kernel) (by decide +kernel)) ?_
  refine relaid_next (⟨[], [[52]], [], by decide +kernel, by decide +kernel, .inl rfl, by decide +kernel, by decide +kernel, by decide +kernel, by decide +kernel, by decide +kernel, by decide +kernel⟩) ?_
  refine relaid_next (word_written (cs := [';']) (by decide +kernel) (by decide +kernel)) ?_
  refine relaid_next (⟨[], [[53]], [], by decide +kernel, by decide +kernel, .inl rfl, by decide +kernel, by decide +kernel, by decide +kernel, by decide +kernel, by decide +kernel, by decide +kernel⟩) ?_
  refine relaid_next (rfl) ?_
  refine relaid_next (word_written (cs := ['l']) (by decide +kernel) (by decide +kernel)) ?_
  refine relaid_next (word_written (cs := ['к', 'о', 'ж', 'е', 'н']) (by decide +kernel) (by decide +kernel)) ?_
  refine relaid_next (⟨rfl, by decide +kernel⟩) ?_
  refine relaid_next (rfl) ?_
  refine relaid_next (⟨rfl, by decide +kernel⟩) ?_
  refine relaid_next (word_written (cs := ['i']) (by decide +kernel) (by decide +kernel)) ?_
  refine relaid_next (⟨rfl, by decide +kernel⟩) ?_
  refine relaid_next (word_written (cs := ['v']) (by decide +kernel) (by decide +kernel)) ?_
  refine relaid_next (word_written (cs := ['c']) (by decide +kernel) (by decide +kernel)) ?_
  refine relaid_next (word_written (cs := ['д', 'о', 'д', 'а', 'т', 'и']) (by decide +kernel) (by decide +kernel)) ?_
  refine relaid_next (⟨rfl, by decide +kernel⟩) ?_
  refine relaid_next (word_written (cs := ['i']) (by decide +kernel) (by decide +kernel)) ?_
  refine relaid_next (word_written (cs := ['*']) (by decide +kernel) (by decide +kernel)) ?_
  refine relaid_next (word_written (cs := ['v']) (by decide +kernel) (by decide +kernel)) ?_
  refine relaid_next (rfl) ?_
  refine relaid_next (rfl) ?_
  refine relaid_next (rfl) ?_
  refine relaid_next (word_written (cs := ['☞']) (by decide +kernel) (by decide +kernel)) ?_
  refine relaid_next (word_written (cs := ['x']) (by decide +kernel) (by decide +kernel)) ?_
  refine relaid_next (.inl rfl) ?_
  refine relaid_next (word_written (cs := ['c']) (by decide +kernel) (by decide +kernel)) ?_
  refine relaid_next (word_written (cs := ['с', 'у', 'м', 'а']) (by decide +kernel) (by decide +kernel)) ?_
  refine relaid_next (rfl) ?_
  refine relaid_next (word_written (cs := ['☞']) (by decide +kernel) (by decide +kernel)) ?_
  refine relaid_next (word_written (cs := ['e']) (by decide +kernel) (by decide +kernel)) ?_
  refine relaid_next (.inl rfl) ?_
  refine relaid_next (word_written (cs := ['Н', 'і', 'л']) (by decide +kernel) (by decide +kernel)) ?_
  refine relaid_next (rfl) ?_
  refine relaid_next (rfl) ?_
  refine relaid_next (word_written (cs := ['ц', 'е', 'й', ' ', 'б', 'л', 'о', 'к', ' ', 'к', 'о', 'д', 'у']) (by decide +kernel) (by decide +kernel)) ?_
  refine relaid_next (word_written (cs := ['п', 'о', 'м', 'и', 'л', 'к', 'а']) (by decide +kernel) (by decide +kernel)) ?_
  refine relaid_next (⟨rfl, by decide +kernel⟩) ?_
  refine relaid_next (⟨by decide +kernel, Nested.byte (by decide +kernel) (by decide +kernel) (Nested.byte (by decide +kernel) (by decide +kernel) (Nested.byte (by decide +kernel) (by decide +kernel) (Nested.byte (by decide +kernel) (by decide +kernel) (Nested.byte (by decide +kernel) (by decide +kernel) (Nested.byte (by decide +kernel) (by decide +kernel) (Nested.byte (by decide +kernel) (by decide +kernel) (Nested.byte (by decide +kernel) (by decide +kernel) (Nested.byte (by decide +kernel) (by decide +kernel) (Nested.byte (by decide +kernel) (by decide +kernel) (Nested.byte (by decide +kernel) (by decide +kernel) (Nested.byte (by decide +kernel) (by decide +kernel) (Nested.nil _))))))))))))⟩) ?_
  refine relaid_next (rfl) ?_
  refine relaid_next (word_written (cs := ['x']) (by decide +kernel) (by decide +kernel)) ?_
  refine relaid_next (.inl rfl) ?_
  refine relaid_next (⟨[], [[48]], [], by decide +kernel, by decide +kernel, .inl rfl, by decide +kernel, by decide +kernel, by decide +kernel, by decide +kernel, by decide +kernel, by decide +kernel⟩) ?_
  refine relaid_next (rfl) ?_
  refine relaid_next (rfl) ?_
  refine relaid_next (word_written (cs := ['в', 'и', 'л', 'о', 'в', 'и', 'т', 'и']) (by decide +kernel) (by decide +kernel)) ?_
  refine relaid_next (⟨rfl, by decide +kernel⟩) ?_
  refine relaid_next (rfl) ?_
  refine relaid_next (⟨rfl, by decide +kernel⟩) ?_
  refine relaid_next (word_written (cs := ['t']) (by decide +kernel) (by decide +kernel)) ?_
  refine relaid_next (word_written (cs := ['e']) (by decide +kernel) (by decide +kernel)) ?_
  refine relaid_next (.inl rfl) ?_
  refine relaid_next (word_written (cs := ['t']) (by decide +kernel) (by decide +kernel)) ?_
  refine relaid_next (word_written (cs := ['+']) (by decide +kernel) (by decide +kernel)) ?_
  refine relaid_next (⟨by decide +kernel, Nested.byte (by decide +kernel) (by decide +kernel) (Nested.nil _)⟩) ?_
  refine relaid_next (rfl) ?_
  refine relaid_next (rfl) ?_
  refine relaid_next (rfl) ?_
  refine relaid_next (word_written (cs := ['б', 'і', 'г', 'а', 'т', 'и']) (by decide +kernel) (by decide +kernel)) ?_
  refine relaid_next (rfl) ?_
  trivial

/-- Its tree. -/
def tree4 : List Node :=
  [.assign (.ref 2 [99, 111, 117, 110, 116, 101, 114]) (.msg (.ref 0 [79, 98, 106, 101, 99, 116]) [.una [110, 101, 119]]),
   .msg (.ref 0 [99, 111, 117, 110, 116, 101, 114]) [.kw [[111, 110], [100, 111]] [.str [114, 101, 115, 101, 116], .block [] [.assign (.ref 1 [115, 117, 109]) (.num [48])]]],
   .msg (.ref 0 [99, 111, 117, 110, 116, 101, 114]) [.kw [[111, 110], [100, 111]] [.str [97, 100, 100, 58], .block [[110]] [.assign (.ref 1 [115, 117, 109]) (.msg (.ref 1 [115, 117, 109]) [.bin [43] (.ref 0 [110])])]]],
   .msg (.ref 0 [99, 111, 117, 110, 116, 101, 114]) [.kw [[111, 110], [100, 111]] [.str [115, 117, 109], .block [] [.ret (.ref 1 [115, 117, 109])]]],
   .assign (.ref 2 [99]) (.msg (.ref 0 [99, 111, 117, 110, 116, 101, 114]) [.una [110, 101, 119]]),
   .msg (.ref 0 [99]) [.una [114, 101, 115, 101, 116]],
   .assign (.ref 2 [108]) (.msg (.ref 0 [83, 101, 113, 117, 101, 110, 99, 101]) [.bin [226, 134, 144] (.num [51]), .bin [59] (.num [52]), .bin [59] (.num [53])]),
   .msg (.ref 0 [108]) [.kw [[101, 97, 99, 104]] [.block [[105], [118]] [.msg (.ref 0 [99]) [.kw [[97, 100, 100]] [.msg (.ref 0 [105]) [.bin [42] (.ref 0 [118])]]]]]],
   .assign (.ref 2 [120]) (.msg (.ref 0 [99]) [.una [115, 117, 109]]),
   .assign (.ref 2 [101]) (.ref 0 [78, 111, 110, 101]),
   .msg (.block [] [.msg (.ref 0 [116, 104, 105, 115, 45, 116, 97, 115, 107]) [.kw [[101, 114, 114, 111, 114]] [.str [98, 97, 100]]], .assign (.ref 0 [120]) (.num [48])]) [.kw [[101, 120, 99, 101, 112, 116]] [.block [[116]] [.assign (.ref 0 [101]) (.msg (.ref 0 [116]) [.bin [43] (.str [33])])]], .una [115, 116, 97, 114, 116]]]

/-- The names, the messages and the texts in it. -/
def names4 : List (List UInt8) :=
  [[99, 111, 117, 110, 116, 101, 114], [99], [108], [105], [118], [110], [120], [101], [116], [115, 117, 109], [115, 101, 108, 102], [111, 119, 110], [116, 104, 105, 115, 45, 116, 97, 115, 107], [84, 114, 117, 101], [70, 97, 108, 115, 101], [79, 98, 106, 101, 99, 116], [83, 101, 113, 117, 101, 110, 99, 101], [78, 111, 110, 101], [66, 111, 111, 108, 101, 97, 110], [78, 117, 109, 98, 101, 114], [84, 101, 120, 116], [84, 97, 115, 107]]
def messages4 : List (List UInt8) := [[110, 101, 119], [114, 101, 115, 101, 116], [115, 117, 109], [43], [42], [226, 134, 144], [59], [115, 116, 97, 114, 116]]
def parts4 : List (List (List UInt8)) := [[[111, 110], [100, 111]], [[97, 100, 100]], [[101, 97, 99, 104]], [[101, 114, 114, 111, 114]], [[101, 120, 99, 101, 112, 116]]]
def texts4 : List (List UInt8) := [[114, 101, 115, 101, 116], [97, 100, 100, 58], [115, 117, 109], [98, 97, 100], [33]]

theorem lines4_covers : Covers english ukrainian lines4 where
  plain := plains_of (by decide +kernel)
  notes := by decide +kernel
  last := ⟨_, rfl, by decide⟩
  sign := ⟨_, rfl, rfl⟩
  balanced := by decide +kernel
  symbols := by decide +kernel
  dec := ⟨_, rfl, rfl, rfl⟩
  tho := ⟨_, rfl, rfl, rfl⟩

theorem lines4_matched : ∀ ps ∈ namesOf tree4, Matched 58 58 lines4 ps := by
  have h : ∀ ps ∈ namesOf tree4, ps ∈ parts4 := by decide +kernel
  intro ps hps
  have h2 := h ps hps
  simp only [parts4, List.mem_cons, List.not_mem_nil, or_false] at h2
  rcases h2 with rfl | rfl | rfl | rfl | rfl
  · exact ⟨by decide +kernel, .inr ⟨by decide +kernel, rfl, by decide +kernel⟩⟩
  · exact ⟨by decide +kernel, .inl ⟨[[208, 180, 208, 190, 208, 180, 208, 176, 209, 130, 208, 184]], by decide +kernel, rfl, by decide +kernel⟩⟩
  · exact ⟨by decide +kernel, .inl ⟨[[208, 186, 208, 190, 208, 182, 208, 181, 208, 189]], by decide +kernel, rfl, by decide +kernel⟩⟩
  · exact ⟨by decide +kernel, .inl ⟨[[208, 191, 208, 190, 208, 188, 208, 184, 208, 187, 208, 186, 208, 176]], by decide +kernel, rfl, by decide +kernel⟩⟩
  · exact ⟨by decide +kernel, .inl ⟨[[208, 178, 208, 184, 208, 187, 208, 190, 208, 178, 208, 184, 209, 130, 208, 184]], by decide +kernel, rfl, by decide +kernel⟩⟩

theorem faithful4 : Faithful words4 Spec.Objects.english ukWords names4 messages4 parts4 where
  apart := by decide +kernel
  names := by decide +kernel
  others := by decide +kernel
  sent := sent_all (P := fun sel sel' => ∀ p ∈ messages Spec.Objects.english ukWords, sel' = p.2 ↔ sel = p.1) (by decide +kernel)
    (by decide +kernel)

theorem made4 : Texts words4 Spec.Objects.english ukWords texts4 messages4 parts4 (Made words4 texts4) :=
  texts_made (by decide +kernel) (by decide +kernel) (by decide +kernel)

/-- At the end of the example `x` is 26, and `e` is the text `bad!`; after translation it is `погано!`. -/
theorem tree4_gives : gives Spec.Objects.english 60 tree4 [120] (.num 26) = true ∧
    gives Spec.Objects.english 60 tree4 [101] (.text [98, 97, 100, 33]) = true ∧
    gives ukWords 60 (trNodes words4 tree4) [101] (.text [208, 191, 208, 190, 208, 179, 208, 176, 208, 189, 208, 190, 33]) = true := by
  decide +kernel

/-! ## The theorem -/

/-- C104, part: if a program with objects, methods, sequences, texts and errors is laid out regularly and has a meaning, the dictionary keeps
its names apart, translates the words with a meaning (and no others) by the words with the same meaning, and translates texts so that
the names of methods remain the names of methods, then the translator translates the program; the programs run to their end, both without an
error or both with an error, with corresponding texts; each variable of the translation has the value that corresponds to the value
of the variable of the original; and the same blocks, objects and sequences have been made: the translated code, the
corresponding variables and elements. Missing: programs with comments, and with other layouts (see C74). -/
theorem C104_objects_partial (d d' : Dict) (hd : GoodDict d) (hd' : GoodDict d') (hk : CalmDict d) (hs : GoodSeps d)
    (ls : List DLine) (hc : Covers d d' ls) (L : Loaded) (hL : load d.param (dictFile ls) = .ok L) (es : List Node)
    (hg : gramStmts d es = true) (hg' : gramStmts d' (trNodes (sayOf d.param d'.param ls) es) = true)
    (hmy : inDict 116 ls d.my = some d'.my) (hvar : inDict 116 ls d.var = some d'.var)
    (hm : ∀ ps ∈ namesOf es, Matched d.param d'.param ls ps) (pieces : List Piece) (tail : List UInt8)
    (hp : pieces.map Piece.cell = cellStmts d (sayOf d.param d'.param ls) es)
    (hl : Laid d d' (sayOf d.param d'.param ls) pieces tail) (hl' : Relaid d' (sayOf d.param d'.param ls) pieces tail)
    (ht : ∀ c ∈ tail, blank c = true)
    (W W' : Words) (hW : Distinct W) (hW' : Distinct W') (hsg : W.sign = d.param) (hsg' : W'.sign = d'.param)
    (hf : fewStmts es = true) (N Q : List (List UInt8)) (K : List (List (List UInt8))) (hu : usesAll N Q K es = true)
    (hF : Faithful (sayOf d.param d'.param ls) W W' N Q K) (texts : List (List UInt8)) (R : List UInt8 → List UInt8 → Prop)
    (hT : Texts (sayOf d.param d'.param ls) W W' texts Q K R) (hy : saysAll texts es = true)
    (r : Except Sig Unit) (f : Frame) (l : List Ob) (he : Ends W es r f l) :
    ∃ out a s o a' s' o' r' l' m, program d L (source pieces tail) = .ok out ∧
      (∀ n, m ≤ n → main d (intern W.toWords) (unintern W) W n (source pieces tail) (start (intern W.toWords) W) = .ok (s, o)) ∧
      (∀ n, m ≤ n → main d' (intern W'.toWords) (unintern W') W' n out (start (intern W'.toWords) W') = .ok (s', o')) ∧
      Result (intern W.toWords) s r ∧ Result (intern W'.toWords) s' r' ∧ LikeRes (fun _ _ => True) R r r' ∧
      (∀ x ∈ N, match f x with
        | some v => (∃ o, find { s with flow := none } (intern W.toWords x) = ({ s with flow := none }, o) ∧ Is (intern W.toWords) a s o v) ∧
            ∃ v' o, Like R v v' ∧
              find { s' with flow := none } (intern W'.toWords ((sayOf d.param d'.param ls).word x)) = ({ s' with flow := none }, o) ∧
              Is (intern W'.toWords) a' s' o v'
        | none => (find { s with flow := none } (intern W.toWords x)).1.flow.isSome = true ∧
            (find { s' with flow := none } (intern W'.toWords ((sayOf d.param d'.param ls).word x))).1.flow.isSome = true) ∧
      (a.Nodup ∧ a.length = l.length) ∧ (a'.Nodup ∧ a'.length = l.length) ∧
      Two (LikeOb (sayOf d.param d'.param ls) W W' N Q K R) l l' ∧
      (∀ (i : Nat) (ob : Ob), l[i]? = some ob → ∃ o, a[i]? = some o ∧ Thing (intern W.toWords) W a s o ob) ∧
      ∀ (i : Nat) (ob : Ob), l'[i]? = some ob → ∃ o, a'[i]? = some o ∧ Thing (intern W'.toWords) W' a' s' o ob := by
  have Kn := knows hs hc hL hm
  obtain ⟨r', f', l', he', hr, hff, hll⟩ := ends_retold hF hT hu hy he
  have h1 := laid_lay ht hl
  rw [show (pieces.map fun p => p.cell.lexeme) = (pieces.map Piece.cell).map Cell.lexeme by rw [List.map_map]; rfl, hp,
    lex_stmts es Kn.len] at h1
  have h2 := relaid_lay ht hl hl'
  rw [show (pieces.map fun p => p.cell.lexeme' (sayOf d.param d'.param ls)) =
      (pieces.map Piece.cell).map (Cell.lexeme' (sayOf d.param d'.param ls)) by rw [List.map_map]; rfl, hp,
    lex_stmts' (d' := d') (by show (inDict 116 ls d.my).getD _ = _; rw [hmy]; rfl)
      (by show (inDict 116 ls d.var).getD _ = _; rw [hvar]; rfl) es Kn.len] at h2
  obtain ⟨a, s, o, m, a1, a2, a3, a4, a5, a6⟩ := Verif.Props.Objects.C103 d hd W hW hsg es _ hg h1 hf r f l he
  obtain ⟨a', s', o', m', b1, b2, b3, b4, b5, b6⟩ :=
    Verif.Props.Objects.C103 d' hd' W' hW' hsg' _ _ hg' h2 (fewStmts_tr es hf) r' f' l' he'
  refine ⟨_, a, s, o, a', s', o', r', l', max m m',
    Verif.Props.TransProg.C74_partial d d' hd hk hs ls hc L hL es hg hm pieces tail hp hl ht,
    fun n hn => a1 n (by omega), fun n hn => b1 n (by omega), a2, b2, hr, fun x hx => ?_, ⟨a4, a5⟩, ⟨b4, by rw [b5, hll.length]⟩, hll, a6, b6⟩
  have c1 := a3 x
  have c2 := b3 ((sayOf d.param d'.param ls).word x)
  have c3 := hff x hx
  cases hfx : f x with
  | none =>
    rw [hfx] at c1 c3
    rw [c3.none_left] at c2
    exact ⟨c1, c2⟩
  | some v =>
    rw [hfx] at c1 c3
    obtain ⟨v', e, hv⟩ := c3.some_left
    rw [e] at c2
    obtain ⟨o2, e1, e2⟩ := c2
    exact ⟨c1, v', o2, hv, e1, e2⟩

example : (GoodDict english ∧ GoodDict ukrainian ∧ CalmDict english ∧ GoodSeps english) ∧
    Covers english ukrainian lines4 ∧ (∃ L, load english.param (dictFile lines4) = .ok L) ∧
    gramStmts english tree4 = true ∧ gramStmts ukrainian (trNodes words4 tree4) = true ∧
    (inDict 116 lines4 english.my = some ukrainian.my ∧ inDict 116 lines4 english.var = some ukrainian.var) ∧
    (∀ ps ∈ namesOf tree4, Matched english.param ukrainian.param lines4 ps) ∧
    pieces4.map Piece.cell = cellStmts english words4 tree4 ∧ Laid english ukrainian words4 pieces4 [10] ∧
    Relaid ukrainian words4 pieces4 [10] ∧ (Distinct Spec.Objects.english ∧ Distinct ukWords) ∧
    (Spec.Objects.english.sign = english.param ∧ ukWords.sign = ukrainian.param) ∧ fewStmts tree4 = true ∧
    usesAll names4 messages4 parts4 tree4 = true ∧ Faithful words4 Spec.Objects.english ukWords names4 messages4 parts4 ∧
    Texts words4 Spec.Objects.english ukWords texts4 messages4 parts4 (Made words4 texts4) ∧ saysAll texts4 tree4 = true ∧
    (∃ f l, Ends Spec.Objects.english tree4 (.ok ()) f l ∧ f [120] = some (.num 26)) :=
  ⟨by decide +kernel, lines4_covers,
    (Verif.Props.Trans.C38_load 58 lines4 lines4_covers.plain lines4_covers.notes).1 ⟨by decide +kernel, by decide +kernel⟩,
    by decide +kernel, by decide +kernel, by decide +kernel, lines4_matched, by decide +kernel, pieces4_laid, pieces4_relaid,
    by decide +kernel, ⟨rfl, rfl⟩, by decide +kernel, by decide +kernel, faithful4, made4, by decide +kernel, of_gives tree4_gives.1⟩

/-! ## Names of methods that are not translated -/

/-- The pieces of the program
```
    >> o := Object new.
    o on: ['new'] do: { <- 5. }.
    >> x := o new.
```
which becomes
```
    ☞ o ≔ Об’єкт нові.
    o on: ‘new’ do: { ↲ 5. }.
    ☞ x ≔ o нові.
``` -/
def pieces5 : List Piece :=
  [⟨[], .word [62, 62], [62, 62], [226, 152, 158]⟩,
   ⟨[32], .word [111], [111], [111]⟩,
   ⟨[32], .assign, [58, 61], [226, 137, 148]⟩,
   ⟨[32], .word [79, 98, 106, 101, 99, 116], [79, 98, 106, 101, 99, 116], [208, 158, 208, 177, 226, 128, 153, 209, 148, 208, 186, 209, 130]⟩,
   ⟨[32], .word [110, 101, 119], [110, 101, 119], [208, 189, 208, 190, 208, 178, 209, 150]⟩,
   ⟨[], .eol, [46], [46]⟩,
   ⟨[10], .word [111], [111], [111]⟩,
   ⟨[32], .key true [111, 110] [111, 110], [111, 110], [111, 110]⟩,
   ⟨[], .sign, [58], [58]⟩,
   ⟨[32], .lit [110, 101, 119], [91, 39, 110, 101, 119, 39, 93], [226, 128, 152, 110, 101, 119, 226, 128, 153]⟩,
   ⟨[32], .key false [100, 111] [100, 111], [100, 111], [100, 111]⟩,
   ⟨[], .sign, [58], [58]⟩,
   ⟨[32], .bopen, [123], [123]⟩,
   ⟨[32], .ret, [60, 45], [226, 134, 178]⟩,
   ⟨[32], .num false [53], [53], [53]⟩,
   ⟨[], .eol, [46], [46]⟩,
   ⟨[32], .bclose, [125], [125]⟩,
   ⟨[], .eol, [46], [46]⟩,
   ⟨[10], .word [62, 62], [62, 62], [226, 152, 158]⟩,
   ⟨[32], .word [120], [120], [120]⟩,
   ⟨[32], .assign, [58, 61], [226, 137, 148]⟩,
   ⟨[32], .word [111], [111], [111]⟩,
   ⟨[32], .word [110, 101, 119], [110, 101, 119], [208, 189, 208, 190, 208, 178, 209, 150]⟩,
   ⟨[], .eol, [46], [46]⟩]

theorem pieces5_laid : Laid english ukrainian words4 pieces5 [10] := by
  unfold pieces5
  refine laid_next (by decide +kernel) (word_written (cs := ['>', '>']) (by decide +kernel) (by decide +kernel)) (by decide +kernel) (by show ([226, 152, 158] : List UInt8) = _; decide +kernel) ?_
  refine laid_next (by decide +kernel) (word_written (cs := ['o']) (by decide +kernel) (by decide +kernel)) (by decide +kernel) (by show ([111] : List UInt8) = _; decide +kernel) ?_
  refine laid_next (by decide +kernel) (.inl rfl) (by decide +kernel) (rfl) ?_
  refine laid_next (by decide +kernel) (word_written (cs := ['O', 'b', 'j', 'e', 'c', 't']) (by decide +kernel) (by decide +kernel)) (by decide +kernel) (by show ([208, 158, 208, 177, 226, 128, 153, 209, 148, 208, 186, 209, 130] : List UInt8) = _; decide +kernel) ?_
  refine laid_next (by decide +kernel) (word_written (cs := ['n', 'e', 'w']) (by decide +kernel) (by decide +kernel)) (by decide +kernel) (by show ([208, 189, 208, 190, 208, 178, 209, 150] : List UInt8) = _; decide +kernel) ?_
  refine laid_next (by decide +kernel) (rfl) (by decide +kernel) (rfl) ?_
  refine laid_next (by decide +kernel) (word_written (cs := ['o']) (by decide +kernel) (by decide +kernel)) (by decide +kernel) (by show ([111] : List UInt8) = _; decide +kernel) ?_
  refine laid_next (by decide +kernel) (word_written (cs := ['o', 'n']) (by decide +kernel) (by decide +kernel)) (by decide +kernel) (by show ([111, 110] : List UInt8) = _; decide +kernel) ?_
  refine laid_next (by decide +kernel) (⟨rfl, by decide +kernel⟩) (by decide +kernel) (rfl) ?_
  refine laid_next (by decide +kernel) (⟨by decide +kernel, Nested.byte (by decide +kernel) (by decide +kernel) (Nested.byte (by decide +kernel) (by decide +kernel) (Nested.byte (by decide +kernel) (by decide +kernel) (Nested.nil _)))⟩) (by decide +kernel) (by show ([226, 128, 152, 110, 101, 119, 226, 128, 153] : List UInt8) = _; decide +kernel) ?_
  refine laid_next (by decide +kernel) (word_written (cs := ['d', 'o']) (by decide +kernel) (by decide +kernel)) (by decide +kernel) (by show ([100, 111] : List UInt8) = _; decide +kernel) ?_
  refine laid_next (by decide +kernel) (⟨rfl, by decide +kernel⟩) (by decide +kernel) (rfl) ?_
  refine laid_next (by decide +kernel) (rfl) (by decide +kernel) (rfl) ?_
  refine laid_next (by decide +kernel) (⟨rfl, by decide +kernel⟩) (by decide +kernel) (rfl) ?_
  refine laid_next (by decide +kernel) (⟨[], [[53]], [], by decide +kernel, by decide +kernel, .inl rfl, by decide +kernel, by decide +kernel, by decide +kernel, by decide +kernel, by decide +kernel, by decide +kernel⟩) (by decide +kernel) (⟨[], [[53]], [], .inl rfl, by decide +kernel, by decide +kernel, by decide +kernel, by decide +kernel⟩) ?_
  refine laid_next (by decide +kernel) (rfl) (by decide +kernel) (rfl) ?_
  refine laid_next (by decide +kernel) (rfl) (by decide +kernel) (rfl) ?_
  refine laid_next (by decide +kernel) (rfl) (by decide +kernel) (rfl) ?_
  refine laid_next (by decide +kernel) (word_written (cs := ['>', '>']) (by decide +kernel) (by decide +kernel)) (by decide +kernel) (by show ([226, 152, 158] : List UInt8) = _; decide +kernel) ?_
  refine laid_next (by decide +kernel) (word_written (cs := ['x']) (by decide +kernel) (by decide +kernel)) (by decide +kernel) (by show ([120] : List UInt8) = _; decide +kernel) ?_
  refine laid_next (by decide +kernel) (.inl rfl) (by decide +kernel) (rfl) ?_
  refine laid_next (by decide +kernel) (word_written (cs := ['o']) (by decide +kernel) (by decide +kernel)) (by decide +kernel) (by show ([111] : List UInt8) = _; decide +kernel) ?_
  refine laid_next (by decide +kernel) (word_written (cs := ['n', 'e', 'w']) (by decide +kernel) (by decide +kernel)) (by decide +kernel) (by show ([208, 189, 208, 190, 208, 178, 209, 150] : List UInt8) = _; decide +kernel) ?_
  refine laid_next (by decide +kernel) (rfl) (by decide +kernel) (rfl) ?_
  trivial

theorem pieces5_relaid : Relaid ukrainian words4 pieces5 [10] := by
  unfold pieces5
  refine relaid_next (word_written (cs := ['☞']) (by decide +kernel) (by decide +kernel)) ?_
  refine relaid_next (word_written (cs := ['o']) (by decide +kernel) (by decide +kernel)) ?_
  refine relaid_next (.inl rfl) ?_
  refine relaid_next (word_written (cs := ['О', 'б', '’', 'є', 'к', 'т']) (by decide +kernel) (by decide +kernel)) ?_
  refine relaid_next (word_written (cs := ['н', 'о', 'в', 'і']) (by decide +kernel) (by decide +kernel)) ?_
  refine relaid_next (rfl) ?_
  refine relaid_next (word_written (cs := ['o']) (by decide +kernel) (by decide +kernel)) ?_
  refine relaid_next (word_written (cs := ['o', 'n']) (by decide +kernel) (by decide +kernel)) ?_
  refine relaid_next (⟨rfl, by decide +kernel⟩) ?_
  refine relaid_next (⟨by decide +kernel, Nested.byte (by decide +kernel) (by decide +kernel) (Nested.byte (by decide +kernel) (by decide +kernel) (Nested.byte (by decide +kernel) (by decide +kernel) (Nested.nil _)))⟩) ?_
  refine relaid_next (word_written (cs := ['d', 'o']) (by decide +kernel) (by decide +kernel)) ?_
  refine relaid_next (⟨rfl, by decide +kernel⟩) ?_
  refine relaid_next (rfl) ?_
  refine relaid_next (⟨rfl, by decide +kernel⟩) ?_
  refine relaid_next (⟨[], [[53]], [], by decide +kernel, by decide +kernel, .inl rfl, by decide +kernel, by decide +kernel, by decide +kernel, by decide +kernel, by decide +kernel, by decide +kernel⟩) ?_
  refine relaid_next (rfl) ?_
  refine relaid_next (rfl) ?_
  refine relaid_next (rfl) ?_
  refine relaid_next (word_written (cs := ['☞']) (by decide +kernel) (by decide +kernel)) ?_
  refine relaid_next (word_written (cs := ['x']) (by decide +kernel) (by decide +kernel)) ?_
  refine relaid_next (.inl rfl) ?_
  refine relaid_next (word_written (cs := ['o']) (by decide +kernel) (by decide +kernel)) ?_
  refine relaid_next (word_written (cs := ['н', 'о', 'в', 'і']) (by decide +kernel) (by decide +kernel)) ?_
  refine relaid_next (rfl) ?_
  trivial

/-- Its tree. -/
def tree5 : List Node :=
  [.assign (.ref 2 [111]) (.msg (.ref 0 [79, 98, 106, 101, 99, 116]) [.una [110, 101, 119]]),
   .msg (.ref 0 [111]) [.kw [[111, 110], [100, 111]] [.str [110, 101, 119], .block [] [.ret (.num [53])]]],
   .assign (.ref 2 [120]) (.msg (.ref 0 [111]) [.una [110, 101, 119]])]

/-- The run of the program ends regularly, and the variable is an object. -/
def makes (W : Words) (n : Nat) (es : List Node) (x : List UInt8) : Bool :=
  match Verif.Props.Objects.outcome W n es with
  | some (.ok _, f, l) => (match f x with
    | some (.ref i) => (match l[i]? with
      | some (.obj _ _ _) => true
      | _ => false)
    | _ => false)
  | _ => false

theorem of_makes {W : Words} {n : Nat} {es : List Node} {x : List UInt8} (h : makes W n es x = true) :
    ∃ f l i p own ms, Ends W es (.ok ()) f l ∧ f x = some (.ref i) ∧ l[i]? = some (.obj p own ms) := by
  unfold makes at h
  split at h
  · rename_i f l e
    split at h
    · rename_i i hi
      split at h
      · rename_i p own ms ho
        exact ⟨f, l, i, p, own, ms, Verif.Props.Objects.ends_of e, hi, ho⟩
      · cases h
    · cases h
  · cases h

/-- The condition on texts is needed: the dictionary translates the message `new`, but not the text `['new']` that names the method. What
is the result 5 of the method in the original is a new object in the translation, without any error or warning. -/
theorem C104_violated_method : ∃ L out s r s' r' m o o', load english.param (dictFile lines4) = .ok L ∧
    program english L (source pieces5 [10]) = .ok out ∧
    (∀ n, m ≤ n → main english (intern Spec.Objects.english.toWords) (unintern Spec.Objects.english) Spec.Objects.english n
      (source pieces5 [10]) (start (intern Spec.Objects.english.toWords) Spec.Objects.english) = .ok (s, r)) ∧
    (∀ n, m ≤ n → main ukrainian (intern ukWords.toWords) (unintern ukWords) ukWords n out (start (intern ukWords.toWords) ukWords) =
      .ok (s', r')) ∧
    s.flow = none ∧ s'.flow = none ∧
    find s (intern Spec.Objects.english.toWords [120]) = (s, o) ∧ (s.obj o).val = .num 5 ∧
    find s' (intern ukWords.toWords [120]) = (s', o') ∧ (s'.obj o').val = .obj := by
  obtain ⟨L, hL⟩ := (Verif.Props.Trans.C38_load 58 lines4 lines4_covers.plain lines4_covers.notes).1 ⟨by decide +kernel, by decide +kernel⟩
  have hs : GoodSeps english := by decide +kernel
  have hm : ∀ ps ∈ namesOf tree5, Matched english.param ukrainian.param lines4 ps := by
    rw [show namesOf tree5 = [[[111, 110], [100, 111]]] by decide +kernel]
    intro ps h
    rw [List.mem_singleton.mp h]
    exact ⟨by decide +kernel, .inr ⟨by decide +kernel, rfl, by decide +kernel⟩⟩
  have hp : pieces5.map Piece.cell = cellStmts english (sayOf english.param ukrainian.param lines4) tree5 := by decide +kernel
  have ht : ∀ c ∈ ([10] : List UInt8), blank c = true := by decide
  have Kn := knows hs lines4_covers hL hm
  have h1 := laid_lay ht pieces5_laid
  rw [show (pieces5.map fun p => p.cell.lexeme) = (pieces5.map Piece.cell).map Cell.lexeme by rw [List.map_map]; rfl, hp,
    lex_stmts tree5 Kn.len] at h1
  have h2 := relaid_lay ht pieces5_laid pieces5_relaid
  rw [show (pieces5.map fun p => p.cell.lexeme' words4) = (pieces5.map Piece.cell).map (Cell.lexeme' words4) by rw [List.map_map]; rfl, hp,
    show words4 = sayOf english.param ukrainian.param lines4 from rfl,
    lex_stmts' (d' := ukrainian) (by decide +kernel) (by decide +kernel) tree5 Kn.len] at h2
  obtain ⟨f, l, he, hf⟩ := of_gives (W := Spec.Objects.english) (n := 20) (es := tree5) (x := [120]) (v := .num 5) (by decide +kernel)
  obtain ⟨f', l', i, p, own, ms, he', hf', hl'⟩ := of_makes (W := ukWords) (n := 20) (es := trNodes words4 tree5) (x := [120])
    (by decide +kernel)
  obtain ⟨a, s, r, m, a1, a2, a3, _⟩ := Verif.Props.Objects.C103 english (by decide +kernel) Spec.Objects.english (by decide +kernel) rfl tree5 _
    (by decide +kernel) h1 (by decide +kernel) _ f l he
  obtain ⟨a', s', r', m', b1, b2, b3, _, _, b6⟩ := Verif.Props.Objects.C103 ukrainian (by decide +kernel) ukWords (by decide +kernel) rfl _ _
    (by decide +kernel) h2 (by decide +kernel) _ f' l' he'
  have c1 := a3 [120]
  have c2 := b3 [120]
  rw [hf] at c1
  rw [hf'] at c2
  have e : ({ s with flow := none } : Model.Interp.St) = s := by cases s; cases a2; rfl
  have e' : ({ s' with flow := none } : Model.Interp.St) = s' := by cases s'; cases b2; rfl
  rw [e] at c1
  rw [e'] at c2
  obtain ⟨o, d1, d2⟩ := c1
  obtain ⟨o', e1, e2⟩ := c2
  obtain ⟨q, g1, g2⟩ := b6 i _ hl'
  obtain rfl : q = o' := Option.some.inj (g1.symm.trans e2)
  exact ⟨L, _, s, r, s', r', max m m', o, q, hL, Verif.Props.TransProg.C74_partial english ukrainian (by decide +kernel) (by decide +kernel) hs
    lines4 lines4_covers L hL tree5 (by decide +kernel) hm pieces5 [10] hp pieces5_laid ht,
    fun n hn => a1 n (by omega), fun n hn => b1 n (by omega), a2, b2, d1, d2, e1, g2.1⟩

end Verif.Props.RetoldObjects
