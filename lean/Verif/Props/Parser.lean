import Verif.Lemmas.Parser
import Verif.Lemmas.ParserFwd
import Verif.Lemmas.ParserShape
import Verif.Lemmas.ParserLong

/-!
# Properties of the parser: C34, C52, C53, C54
-/

namespace Verif.Props.Parser
open Verif.Model.Parser
open Verif.Spec (Dict Node english encode)
open Verif.Spec.Lexer Verif.Spec.Parser

/-! ## Examples of programs -/

theorem gap_blanks {g after : List UInt8} (h : ∀ c ∈ g, blank c = true) : Gap g after := by
  induction g with
  | nil => exact Gap.none _
  | cons c g ih => exact Gap.blank (h c (by simp)) (ih fun c hc => h c (by simp [hc]))

theorem word_written {d : Dict} {w rest : List UInt8} {cs : List Char} (h1 : w = encode cs)
    (h2 : w ≠ [] ∧ w.length ≤ 255 ∧
      (∀ c ∈ w, c ∉ [35, 40, 41, d.param] ∧ blank c = false) ∧
      (∀ c ∈ w.take 1, c ∉ ([123, 125] : List UInt8) ∧ digit c = false) ∧
      (w.take 1 = [45] → startsDigit (w.drop 1 ++ rest) = false) ∧
      (∀ i < w.length, startsNone [d.eol, d.qo, d.assign, d.chain, [58, 61]] (w.drop i ++ rest) = true) ∧
      startsNone [d.ret ++ [32]] (w ++ rest) = true ∧ endsWord d rest = true) :
    Written d (.word w) w rest :=
  ⟨rfl, h2.1, h2.2.1, ⟨cs, h1⟩, h2.2.2⟩

/-- `>> a := 3 + 4 fac. a at: 1 * a put: (b get: ['hi']), show. <- {:x x neg. }.` -/
def program1 : List UInt8 :=
  [62, 62, 32, 97, 32, 58, 61, 32, 51, 32, 43, 32, 52, 32, 102, 97, 99, 46, 10, 97, 32, 97, 116, 58, 32, 49, 32, 42, 32, 97, 32, 112, 117, 116, 58, 32, 40, 98, 32, 103, 101, 116, 58, 32, 91, 39, 104, 105, 39, 93, 41, 44, 32, 115, 104, 111, 119, 46, 10, 60, 45, 32, 123, 58, 120, 32, 120, 32, 110, 101, 103, 46, 32, 125, 46, 10]

/-- Its tree. -/
def tree1 : List Node :=
  [.assign (.ref 2 [97]) (.msg (.num [51]) [.bin [43] (.msg (.num [52]) [.una [102, 97, 99]])]),
   .msg (.ref 0 [97]) [.kw [[97, 116], [112, 117, 116]]
     [.msg (.num [49]) [.bin [42] (.ref 0 [97])],
      .nested (.msg (.ref 0 [98]) [.kw [[103, 101, 116]] [.str [104, 105]]])], .una [115, 104, 111, 119]],
   .ret (.block [[120]] [.msg (.ref 0 [120]) [.una [110, 101, 103]]])]

theorem tree1_lexemes : lexStmts english tree1 =
    [.word [62, 62], .word [97], .assign, .num [51], .word [43], .num [52], .word [102, 97, 99], .eol, .word [97], .word [97, 116], .colon, .num [49], .word [42], .word [97], .word [112, 117, 116], .colon, .popen, .word [98], .word [103, 101, 116], .colon, .lit [104, 105], .pclose, .chain, .word [115, 104, 111, 119], .eol, .ret, .bopen, .colon, .word [120], .word [120], .word [110, 101, 103], .eol, .bclose, .eol] := by
  unfold tree1
  simp only [lexStmts, lexemes, lexMsgs, lexArgs, isKw]
  rfl

theorem program1_lay : Lay english (lexStmts english tree1) program1 := by
  rw [tree1_lexemes]
  unfold program1
  refine Lay.next (g := []) (b := [62, 62]) (gap_blanks (by decide)) (word_written (cs := ['>', '>']) (by decide) (by decide)) ?_
  refine Lay.next (g := [32]) (b := [97]) (gap_blanks (by decide)) (word_written (cs := ['a']) (by decide) (by decide)) ?_
  refine Lay.next (g := [32]) (b := [58, 61]) (gap_blanks (by decide)) (Or.inl rfl) ?_
  refine Lay.next (g := [32]) (b := [51]) (gap_blanks (by decide)) (⟨[], [[51]], [], rfl, rfl, Or.inl rfl, by decide, by decide, by decide, by decide, by decide, by decide⟩) ?_
  refine Lay.next (g := [32]) (b := [43]) (gap_blanks (by decide)) (word_written (cs := ['+']) (by decide) (by decide)) ?_
  refine Lay.next (g := [32]) (b := [52]) (gap_blanks (by decide)) (⟨[], [[52]], [], rfl, rfl, Or.inl rfl, by decide, by decide, by decide, by decide, by decide, by decide⟩) ?_
  refine Lay.next (g := [32]) (b := [102, 97, 99]) (gap_blanks (by decide)) (word_written (cs := ['f', 'a', 'c']) (by decide) (by decide)) ?_
  refine Lay.next (g := []) (b := [46]) (gap_blanks (by decide)) (rfl) ?_
  refine Lay.next (g := [10]) (b := [97]) (gap_blanks (by decide)) (word_written (cs := ['a']) (by decide) (by decide)) ?_
  refine Lay.next (g := [32]) (b := [97, 116]) (gap_blanks (by decide)) (word_written (cs := ['a', 't']) (by decide) (by decide)) ?_
  refine Lay.next (g := []) (b := [58]) (gap_blanks (by decide)) (⟨rfl, by decide⟩) ?_
  refine Lay.next (g := [32]) (b := [49]) (gap_blanks (by decide)) (⟨[], [[49]], [], rfl, rfl, Or.inl rfl, by decide, by decide, by decide, by decide, by decide, by decide⟩) ?_
  refine Lay.next (g := [32]) (b := [42]) (gap_blanks (by decide)) (word_written (cs := ['*']) (by decide) (by decide)) ?_
  refine Lay.next (g := [32]) (b := [97]) (gap_blanks (by decide)) (word_written (cs := ['a']) (by decide) (by decide)) ?_
  refine Lay.next (g := [32]) (b := [112, 117, 116]) (gap_blanks (by decide)) (word_written (cs := ['p', 'u', 't']) (by decide) (by decide)) ?_
  refine Lay.next (g := []) (b := [58]) (gap_blanks (by decide)) (⟨rfl, by decide⟩) ?_
  refine Lay.next (g := [32]) (b := [40]) (gap_blanks (by decide)) (rfl) ?_
  refine Lay.next (g := []) (b := [98]) (gap_blanks (by decide)) (word_written (cs := ['b']) (by decide) (by decide)) ?_
  refine Lay.next (g := [32]) (b := [103, 101, 116]) (gap_blanks (by decide)) (word_written (cs := ['g', 'e', 't']) (by decide) (by decide)) ?_
  refine Lay.next (g := []) (b := [58]) (gap_blanks (by decide)) (⟨rfl, by decide⟩) ?_
  refine Lay.next (g := [32]) (b := [91, 39, 104, 105, 39, 93]) (gap_blanks (by decide)) (⟨rfl, Nested.byte (by decide) (by decide) (Nested.byte (by decide) (by decide) (Nested.nil _))⟩) ?_
  refine Lay.next (g := []) (b := [41]) (gap_blanks (by decide)) (rfl) ?_
  refine Lay.next (g := []) (b := [44]) (gap_blanks (by decide)) (rfl) ?_
  refine Lay.next (g := [32]) (b := [115, 104, 111, 119]) (gap_blanks (by decide)) (word_written (cs := ['s', 'h', 'o', 'w']) (by decide) (by decide)) ?_
  refine Lay.next (g := []) (b := [46]) (gap_blanks (by decide)) (rfl) ?_
  refine Lay.next (g := [10]) (b := [60, 45]) (gap_blanks (by decide)) (⟨rfl, rfl⟩) ?_
  refine Lay.next (g := [32]) (b := [123]) (gap_blanks (by decide)) (rfl) ?_
  refine Lay.next (g := []) (b := [58]) (gap_blanks (by decide)) (⟨rfl, by decide⟩) ?_
  refine Lay.next (g := []) (b := [120]) (gap_blanks (by decide)) (word_written (cs := ['x']) (by decide) (by decide)) ?_
  refine Lay.next (g := [32]) (b := [120]) (gap_blanks (by decide)) (word_written (cs := ['x']) (by decide) (by decide)) ?_
  refine Lay.next (g := [32]) (b := [110, 101, 103]) (gap_blanks (by decide)) (word_written (cs := ['n', 'e', 'g']) (by decide) (by decide)) ?_
  refine Lay.next (g := []) (b := [46]) (gap_blanks (by decide)) (rfl) ?_
  refine Lay.next (g := [32]) (b := [125]) (gap_blanks (by decide)) (rfl) ?_
  refine Lay.next (g := []) (b := [46]) (gap_blanks (by decide)) (rfl) ?_
  exact Lay.done (g := [10]) (gap_blanks (by decide))


/-! ## C34: precedence of messages -/

/-- C34: a program that is written according to the grammar, in any layout and any usable language, is parsed into
exactly the tree the grammar assigns to it, without an error: unary messages before binary ones before keyword
messages, equal ones from left to right, parentheses and the chain symbol as expected. -/
theorem C34 (d : Dict) (hd : GoodDict d) (es : List Node) (prg : List UInt8) (hg : gramStmts d es = true)
    (hl : Lay d (lexStmts d es) prg) : ∃ s', s'.err = false ∧ parse d prg = .ok es s' :=
  parse_ok hd hg hl

example : GoodDict english ∧ gramStmts english tree1 = true ∧ Lay english (lexStmts english tree1) program1 :=
  ⟨by decide, by decide +kernel, program1_lay⟩

/-- C34: the grammar is unambiguous: no program can be read as two different trees. -/
theorem C34_unambiguous (d : Dict) (hd : GoodDict d) (es fs : List Node) (prg : List UInt8) (he : gramStmts d es = true)
    (hf : gramStmts d fs = true) (h1 : Lay d (lexStmts d es) prg) (h2 : Lay d (lexStmts d fs) prg) : es = fs := by
  obtain ⟨s1, _, e1⟩ := parse_ok hd he h1
  obtain ⟨s2, _, e2⟩ := parse_ok hd hf h2
  rw [e1] at e2
  injection e2

example : GoodDict english ∧ gramStmts english tree1 = true ∧ Lay english (lexStmts english tree1) program1 :=
  ⟨by decide, by decide +kernel, program1_lay⟩

/-- C34: in the tree of whatever program is accepted, a binary message never takes an argument with binary or keyword
messages, nor a keyword message one with keyword messages, except in parentheses, in a block, or on the right hand
side of an assignment. -/
theorem C34_ranks (d : Dict) (prg : List UInt8) (es : List Node) (s : PS) (h : parse d prg = .ok es s) :
    rankedStmts es = true :=
  program_ranked _ _ _ (by unfold rankedStmts; rfl) es s h

example : ∃ s, parse english program1 = .ok tree1 s ∧ tree1 ≠ [] := by
  obtain ⟨s, _, h⟩ := C34 english (by decide) tree1 program1 (by decide +kernel) program1_lay
  exact ⟨s, h, by decide⟩

/-! ## C52: the parser answers -/

/-- C52: for every program text, well formed or not, the parser stops after a number of steps that is linear in the
length of the text. -/
theorem C52 (d : Dict) (hu : Usable d) (prg : List UInt8) : parse d prg ≠ .more ∧
    ∀ n, 4 * prg.length + 8 ≤ n → program d n [] ⟨Verif.Model.Lexer.load prg, false⟩ = parse d prg := by
  have hne : parse d prg ≠ .more :=
    (program_fine hu _ _ _ (by show 4 * prg.length + 3 ≤ 4 * prg.length + 8; omega)).ne_more
  refine ⟨hne, ?_⟩
  intro n hn
  obtain ⟨m, rfl⟩ : ∃ m, n = 4 * prg.length + 8 + m := ⟨n - (4 * prg.length + 8), by omega⟩
  exact program_mono hne m

/-- C52: a program is accepted only after all of its text has been read. -/
theorem C52_whole (d : Dict) (hu : Usable d) (prg : List UInt8) (es : List Node) (s : PS) (h : parse d prg = .ok es s) :
    s.lx.code = [] :=
  (program_fine hu _ _ _ (by show 4 * prg.length + 3 ≤ 4 * prg.length + 8; omega)).of_ok h

example : Usable english := by decide

/-! ## C53: nothing is dropped -/

/-- The trees of an accepted program, and whether an error was recorded. -/
def answer (x : PR (List Node)) : Option (List Node × Bool) :=
  match x with
  | .ok es s => some (es, s.err)
  | _ => none

/-- `x foo: y bar 5 6.` -/
def dropping : List UInt8 := [120, 32, 102, 111, 111, 58, 32, 121, 32, 98, 97, 114, 32, 53, 32, 54, 46]

/-- C53, part: if the program is written according to the grammar, then the tree has all of its words and symbols.
Missing: other accepted programs (see `C53_violated`). -/
theorem C53_partial (d : Dict) (hd : GoodDict d) (ls : List Lexeme) (prg : List UInt8) (hl : Lay d ls prg)
    (hg : ∃ fs, gramStmts d fs = true ∧ lexStmts d fs = ls) (es : List Node) (s : PS) (h : parse d prg = .ok es s) :
    lexStmts d es = ls ∧ s.err = false := by
  obtain ⟨fs, hf, rfl⟩ := hg
  obtain ⟨s', h1, h2⟩ := parse_ok hd hf hl
  rw [h2] at h
  injection h with h3 h4
  subst h3 h4
  exact ⟨rfl, h1⟩

example : ∃ fs, gramStmts english fs = true ∧ lexStmts english fs = lexStmts english tree1 ∧
    Lay english (lexStmts english fs) program1 :=
  ⟨tree1, by decide +kernel, rfl, program1_lay⟩

/-- C53 does not hold: `x foo: y bar 5 6.` is accepted without an error, and the number 5 is dropped: the message
`foo:` is sent with the arguments `y bar` and `6`. -/
theorem C53_violated : ∃ (ls : List Lexeme) (es : List Node), Lay english ls dropping ∧
    answer (parse english dropping) = some (es, false) ∧
    es = [.msg (.ref 0 [120]) [.kw [[102, 111, 111]] [.msg (.ref 0 [121]) [.una [98, 97, 114]], .num [54]]]] ∧
    .num [53] ∈ ls ∧ .num [53] ∉ lexStmts english es := by
  refine ⟨[.word [120], .word [102, 111, 111], .colon, .word [121], .word [98, 97, 114], .num [53], .num [54], .eol],
    _, ?_, by decide +kernel, rfl, by decide, ?_⟩
  · unfold dropping
    refine Lay.next (g := []) (b := [120]) (gap_blanks (by decide)) (word_written (cs := ['x']) (by decide) (by decide)) ?_
    refine Lay.next (g := [32]) (b := [102, 111, 111]) (gap_blanks (by decide)) (word_written (cs := ['f', 'o', 'o']) (by decide) (by decide)) ?_
    refine Lay.next (g := []) (b := [58]) (gap_blanks (by decide)) (⟨rfl, by decide⟩) ?_
    refine Lay.next (g := [32]) (b := [121]) (gap_blanks (by decide)) (word_written (cs := ['y']) (by decide) (by decide)) ?_
    refine Lay.next (g := [32]) (b := [98, 97, 114]) (gap_blanks (by decide)) (word_written (cs := ['b', 'a', 'r']) (by decide) (by decide)) ?_
    refine Lay.next (g := [32]) (b := [53]) (gap_blanks (by decide)) (⟨[], [[53]], [], rfl, rfl, Or.inl rfl, by decide, by decide, by decide, by decide, by decide, by decide⟩) ?_
    refine Lay.next (g := [32]) (b := [54]) (gap_blanks (by decide)) (⟨[], [[54]], [], rfl, rfl, Or.inl rfl, by decide, by decide, by decide, by decide, by decide, by decide⟩) ?_
    refine Lay.next (g := []) (b := [46]) (gap_blanks (by decide)) (rfl) ?_
    exact Lay.done (g := []) (gap_blanks (by decide))
  · simp only [lexStmts, lexemes, lexMsgs, lexArgs]
    decide

/-! ## C54: messages of any length -/

/-- `x` with a keyword message of one part of `n` bytes: `x aaa...a: y.` -/
def long (n : Nat) : List UInt8 := [120, 32] ++ List.replicate n 97 ++ [58, 32, 121, 46]

/-- C54, part: if all messages have at most 255 bytes (including the parameter signs) then the parser neither reads nor
writes out of bounds, and keeps all of the message. Missing: longer messages (see `C54_violated`). -/
theorem C54_partial (d : Dict) (hd : GoodDict d) (es : List Node) (prg : List UInt8) (hg : gramStmts d es = true)
    (hl : Lay d (lexStmts d es) prg) : parse d prg ≠ .ub ∧ ∃ s, parse d prg = .ok es s := by
  obtain ⟨s, _, h⟩ := parse_ok hd hg hl
  rw [h]
  exact ⟨by intro h; (cases h), s, rfl⟩

example : gramStmts english [.msg (.ref 0 [120]) [.kw [List.replicate 254 97] [.ref 0 [121]]]] = true := by decide +kernel

/-- C54: what happens to a message that is too long, whatever its receiver, parts and arguments. The parts `qs` fit;
the part `p` goes over the limit. If it does so by itself the program is rejected; if only its parameter sign does,
there is a store outside of the buffer. -/
theorem C54_long (d : Dict) (hd : GoodDict d) (r : Node) (qs rs : List (List UInt8)) (p : List UInt8) (as : List Node)
    (after : List Lexeme) (prg : List UInt8) (hr : prim r = true) (hgr : gram d 0 r = true)
    (hlen : (qs ++ p :: rs).length = as.length) (hg : gramArgs d as = true)
    (hq : (qs.map (·.length + 1)).sum ≤ 255) (hp : 255 ≤ (qs.map (·.length + 1)).sum + p.length)
    (hl : Lay d (lexemes d (.msg r [.kw (qs ++ p :: rs) as]) ++ after) prg) :
    parse d prg = if (qs.map (·.length + 1)).sum + p.length = 255 then .ub else .fail :=
  parse_long hd hr hgr hlen hg hq hp hl

example : ∃ prg, Lay english (lexemes english (.msg (.ref 0 [120])
    [.kw ([[97]] ++ List.replicate 254 98 :: []) [.num [49], .num [50]]]) ++ [.eol]) prg := by
  refine ⟨[120] ++ ([32] ++ [97] ++ ([58] ++ ([32] ++ [49] ++ ([32] ++ List.replicate 254 98 ++ ([58] ++ ([32] ++ [50] ++ [46])))))), ?_⟩
  simp only [lexemes, lexMsgs, lexArgs]
  refine Lay.next (g := []) (b := [120]) (gap_blanks (by decide)) (word_written (cs := ['x']) (by decide) (by decide +kernel)) ?_
  refine Lay.next (g := [32]) (b := [97]) (gap_blanks (by decide)) (word_written (cs := ['a']) (by decide) (by decide +kernel)) ?_
  refine Lay.next (g := []) (b := [58]) (gap_blanks (by decide)) (⟨rfl, by decide +kernel⟩) ?_
  refine Lay.next (g := [32]) (b := [49]) (gap_blanks (by decide)) (⟨[], [[49]], [], rfl, rfl, Or.inl rfl, by decide, by decide, by decide, by decide, by decide +kernel, by decide +kernel⟩) ?_
  refine Lay.next (g := [32]) (b := List.replicate 254 98) (gap_blanks (by decide)) (word_written (cs := List.replicate 254 'b') (by decide +kernel) (by decide +kernel)) ?_
  refine Lay.next (g := []) (b := [58]) (gap_blanks (by decide)) (⟨rfl, by decide⟩) ?_
  refine Lay.next (g := [32]) (b := [50]) (gap_blanks (by decide)) (⟨[], [[50]], [], rfl, rfl, Or.inl rfl, by decide, by decide, by decide, by decide, by decide, by decide⟩) ?_
  refine Lay.next (g := []) (b := [46]) (gap_blanks (by decide)) rfl ?_
  exact Lay.done (Gap.none _)

/-- Undefined behaviour. -/
def undefined (x : PR (List Node)) : Bool :=
  match x with
  | .ub => true
  | _ => false

/-- C54 does not hold: a keyword of 255 bytes is followed by a store behind the buffer of 255 bytes. -/
theorem C54_violated : parse english (long 255) = .ub ∧ answer (parse english (long 254)) =
    some ([.msg (.ref 0 [120]) [.kw [List.replicate 254 97] [.ref 0 [121]]]], false) := by
  have h : undefined (parse english (long 255)) = true := by decide +kernel
  refine ⟨?_, by decide +kernel⟩
  generalize parse english (long 255) = x at h
  cases x <;> first | rfl | cases h

end Verif.Props.Parser
