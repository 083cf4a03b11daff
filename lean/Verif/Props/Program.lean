import Verif.Lemmas.ProgramStart
import Verif.Lemmas.ProgramEuclid
import Verif.Props.Parser

/-!
# C102: programs compute what they say
-/

namespace Verif.Props.Program
open Verif.Model.Program
open Verif.Model.Interp (St find)
open Verif.Spec (Dict Node)
open Verif.Spec.Parser
open Verif.Spec.Program (Words V Frame Ends fewStmts)
open Verif.Props.Parser (gap_blanks word_written)

/-! ## An example -/

/-- The program
```
    >> sum := 0.
    {:i
      (i > 4) break.
      sum := sum + i.
    } * 10.
    >> fac := {:n
      >> r := 1.
      (n > 1) true: { r := n * (self apply: n - 1). }.
      <- r.
    }.
    >> x := fac apply: 5.
``` -/
def demo : List UInt8 :=
  [62, 62, 32, 115, 117, 109, 32, 58, 61, 32, 48, 46, 10, 123, 58, 105, 10, 32, 32, 40, 105, 32, 62, 32, 52, 41, 32, 98, 114, 101, 97, 107, 46, 10, 32, 32, 115, 117, 109, 32, 58, 61, 32, 115, 117, 109, 32, 43, 32, 105, 46, 10, 125, 32, 42, 32, 49, 48, 46, 10, 62, 62, 32, 102, 97, 99, 32, 58, 61, 32, 123, 58, 110, 10, 32, 32, 62, 62, 32, 114, 32, 58, 61, 32, 49, 46, 10, 32, 32, 40, 110, 32, 62, 32, 49, 41, 32, 116, 114, 117, 101, 58, 32, 123, 32, 114, 32, 58, 61, 32, 110, 32, 42, 32, 40, 115, 101, 108, 102, 32, 97, 112, 112, 108, 121, 58, 32, 110, 32, 45, 32, 49, 41, 46, 32, 125, 46, 10, 32, 32, 60, 45, 32, 114, 46, 10, 125, 46, 10, 62, 62, 32, 120, 32, 58, 61, 32, 102, 97, 99, 32, 97, 112, 112, 108, 121, 58, 32, 53, 46, 10]

/-- Its tree. -/
def demoTree : List Node :=
  [.assign (.ref 2 [115, 117, 109]) (.num [48]),
   .msg (.block [[105]] [.msg (.nested (.msg (.ref 0 [105]) [.bin [62] (.num [52])])) [.una [98, 114, 101, 97, 107]],
     .assign (.ref 0 [115, 117, 109]) (.msg (.ref 0 [115, 117, 109]) [.bin [43] (.ref 0 [105])])]) [.bin [42] (.num [49, 48])],
   .assign (.ref 2 [102, 97, 99]) (.block [[110]] [.assign (.ref 2 [114]) (.num [49]),
     .msg (.nested (.msg (.ref 0 [110]) [.bin [62] (.num [49])])) [.kw [[116, 114, 117, 101]] [.block [] [
       .assign (.ref 0 [114]) (.msg (.ref 0 [110]) [.bin [42] (.nested (.msg (.ref 0 [115, 101, 108, 102]) [.kw [[97, 112, 112, 108, 121]]
         [.msg (.ref 0 [110]) [.bin [45] (.num [49])]]]))])]]],
     .ret (.ref 0 [114])]),
   .assign (.ref 2 [120]) (.msg (.ref 0 [102, 97, 99]) [.kw [[97, 112, 112, 108, 121]] [.num [53]]])]

theorem demo_lexemes : lexStmts Spec.english demoTree =
    [.word [62, 62], .word [115, 117, 109], .assign, .num [48], .eol, .bopen, .colon, .word [105], .popen, .word [105], .word [62], .num [52], .pclose, .word [98, 114, 101, 97, 107], .eol, .word [115, 117, 109], .assign, .word [115, 117, 109], .word [43], .word [105], .eol, .bclose, .word [42], .num [49, 48], .eol, .word [62, 62], .word [102, 97, 99], .assign, .bopen, .colon, .word [110], .word [62, 62], .word [114], .assign, .num [49], .eol, .popen, .word [110], .word [62], .num [49], .pclose, .word [116, 114, 117, 101], .colon, .bopen, .word [114], .assign, .word [110], .word [42], .popen, .word [115, 101, 108, 102], .word [97, 112, 112, 108, 121], .colon, .word [110], .word [45], .num [49], .pclose, .eol, .bclose, .eol, .ret, .word [114], .eol, .bclose, .eol, .word [62, 62], .word [120], .assign, .word [102, 97, 99], .word [97, 112, 112, 108, 121], .colon, .num [53], .eol] := by
  unfold demoTree
  simp only [lexStmts, lexemes, lexMsgs, lexArgs]
  rfl

theorem demo_lay : Lay Spec.english (lexStmts Spec.english demoTree) demo := by
  rw [demo_lexemes]
  unfold demo
  refine Lay.next (g := []) (b := [62, 62]) (gap_blanks (by decide)) (word_written (cs := ['>', '>']) (by decide) (by decide)) ?_
  refine Lay.next (g := [32]) (b := [115, 117, 109]) (gap_blanks (by decide)) (word_written (cs := ['s', 'u', 'm']) (by decide) (by decide)) ?_
  refine Lay.next (g := [32]) (b := [58, 61]) (gap_blanks (by decide)) (Or.inl rfl) ?_
  refine Lay.next (g := [32]) (b := [48]) (gap_blanks (by decide)) ⟨[], [[48]], [], rfl, rfl, Or.inl rfl, by decide, by decide, by decide, by decide, by decide, by decide⟩ ?_
  refine Lay.next (g := []) (b := [46]) (gap_blanks (by decide)) rfl ?_
  refine Lay.next (g := [10]) (b := [123]) (gap_blanks (by decide)) rfl ?_
  refine Lay.next (g := []) (b := [58]) (gap_blanks (by decide)) ⟨rfl, by decide⟩ ?_
  refine Lay.next (g := []) (b := [105]) (gap_blanks (by decide)) (word_written (cs := ['i']) (by decide) (by decide)) ?_
  refine Lay.next (g := [10, 32, 32]) (b := [40]) (gap_blanks (by decide)) rfl ?_
  refine Lay.next (g := []) (b := [105]) (gap_blanks (by decide)) (word_written (cs := ['i']) (by decide) (by decide)) ?_
  refine Lay.next (g := [32]) (b := [62]) (gap_blanks (by decide)) (word_written (cs := ['>']) (by decide) (by decide)) ?_
  refine Lay.next (g := [32]) (b := [52]) (gap_blanks (by decide)) ⟨[], [[52]], [], rfl, rfl, Or.inl rfl, by decide, by decide, by decide, by decide, by decide, by decide⟩ ?_
  refine Lay.next (g := []) (b := [41]) (gap_blanks (by decide)) rfl ?_
  refine Lay.next (g := [32]) (b := [98, 114, 101, 97, 107]) (gap_blanks (by decide)) (word_written (cs := ['b', 'r', 'e', 'a', 'k']) (by decide) (by decide)) ?_
  refine Lay.next (g := []) (b := [46]) (gap_blanks (by decide)) rfl ?_
  refine Lay.next (g := [10, 32, 32]) (b := [115, 117, 109]) (gap_blanks (by decide)) (word_written (cs := ['s', 'u', 'm']) (by decide) (by decide)) ?_
  refine Lay.next (g := [32]) (b := [58, 61]) (gap_blanks (by decide)) (Or.inl rfl) ?_
  refine Lay.next (g := [32]) (b := [115, 117, 109]) (gap_blanks (by decide)) (word_written (cs := ['s', 'u', 'm']) (by decide) (by decide)) ?_
  refine Lay.next (g := [32]) (b := [43]) (gap_blanks (by decide)) (word_written (cs := ['+']) (by decide) (by decide)) ?_
  refine Lay.next (g := [32]) (b := [105]) (gap_blanks (by decide)) (word_written (cs := ['i']) (by decide) (by decide)) ?_
  refine Lay.next (g := []) (b := [46]) (gap_blanks (by decide)) rfl ?_
  refine Lay.next (g := [10]) (b := [125]) (gap_blanks (by decide)) rfl ?_
  refine Lay.next (g := [32]) (b := [42]) (gap_blanks (by decide)) (word_written (cs := ['*']) (by decide) (by decide)) ?_
  refine Lay.next (g := [32]) (b := [49, 48]) (gap_blanks (by decide)) ⟨[], [[49, 48]], [], rfl, rfl, Or.inl rfl, by decide, by decide, by decide, by decide, by decide, by decide⟩ ?_
  refine Lay.next (g := []) (b := [46]) (gap_blanks (by decide)) rfl ?_
  refine Lay.next (g := [10]) (b := [62, 62]) (gap_blanks (by decide)) (word_written (cs := ['>', '>']) (by decide) (by decide)) ?_
  refine Lay.next (g := [32]) (b := [102, 97, 99]) (gap_blanks (by decide)) (word_written (cs := ['f', 'a', 'c']) (by decide) (by decide)) ?_
  refine Lay.next (g := [32]) (b := [58, 61]) (gap_blanks (by decide)) (Or.inl rfl) ?_
  refine Lay.next (g := [32]) (b := [123]) (gap_blanks (by decide)) rfl ?_
  refine Lay.next (g := []) (b := [58]) (gap_blanks (by decide)) ⟨rfl, by decide⟩ ?_
  refine Lay.next (g := []) (b := [110]) (gap_blanks (by decide)) (word_written (cs := ['n']) (by decide) (by decide)) ?_
  refine Lay.next (g := [10, 32, 32]) (b := [62, 62]) (gap_blanks (by decide)) (word_written (cs := ['>', '>']) (by decide) (by decide)) ?_
  refine Lay.next (g := [32]) (b := [114]) (gap_blanks (by decide)) (word_written (cs := ['r']) (by decide) (by decide)) ?_
  refine Lay.next (g := [32]) (b := [58, 61]) (gap_blanks (by decide)) (Or.inl rfl) ?_
  refine Lay.next (g := [32]) (b := [49]) (gap_blanks (by decide)) ⟨[], [[49]], [], rfl, rfl, Or.inl rfl, by decide, by decide, by decide, by decide, by decide, by decide⟩ ?_
  refine Lay.next (g := []) (b := [46]) (gap_blanks (by decide)) rfl ?_
  refine Lay.next (g := [10, 32, 32]) (b := [40]) (gap_blanks (by decide)) rfl ?_
  refine Lay.next (g := []) (b := [110]) (gap_blanks (by decide)) (word_written (cs := ['n']) (by decide) (by decide)) ?_
  refine Lay.next (g := [32]) (b := [62]) (gap_blanks (by decide)) (word_written (cs := ['>']) (by decide) (by decide)) ?_
  refine Lay.next (g := [32]) (b := [49]) (gap_blanks (by decide)) ⟨[], [[49]], [], rfl, rfl, Or.inl rfl, by decide, by decide, by decide, by decide, by decide, by decide⟩ ?_
  refine Lay.next (g := []) (b := [41]) (gap_blanks (by decide)) rfl ?_
  refine Lay.next (g := [32]) (b := [116, 114, 117, 101]) (gap_blanks (by decide)) (word_written (cs := ['t', 'r', 'u', 'e']) (by decide) (by decide)) ?_
  refine Lay.next (g := []) (b := [58]) (gap_blanks (by decide)) ⟨rfl, by decide⟩ ?_
  refine Lay.next (g := [32]) (b := [123]) (gap_blanks (by decide)) rfl ?_
  refine Lay.next (g := [32]) (b := [114]) (gap_blanks (by decide)) (word_written (cs := ['r']) (by decide) (by decide)) ?_
  refine Lay.next (g := [32]) (b := [58, 61]) (gap_blanks (by decide)) (Or.inl rfl) ?_
  refine Lay.next (g := [32]) (b := [110]) (gap_blanks (by decide)) (word_written (cs := ['n']) (by decide) (by decide)) ?_
  refine Lay.next (g := [32]) (b := [42]) (gap_blanks (by decide)) (word_written (cs := ['*']) (by decide) (by decide)) ?_
  refine Lay.next (g := [32]) (b := [40]) (gap_blanks (by decide)) rfl ?_
  refine Lay.next (g := []) (b := [115, 101, 108, 102]) (gap_blanks (by decide)) (word_written (cs := ['s', 'e', 'l', 'f']) (by decide) (by decide)) ?_
  refine Lay.next (g := [32]) (b := [97, 112, 112, 108, 121]) (gap_blanks (by decide)) (word_written (cs := ['a', 'p', 'p', 'l', 'y']) (by decide) (by decide)) ?_
  refine Lay.next (g := []) (b := [58]) (gap_blanks (by decide)) ⟨rfl, by decide⟩ ?_
  refine Lay.next (g := [32]) (b := [110]) (gap_blanks (by decide)) (word_written (cs := ['n']) (by decide) (by decide)) ?_
  refine Lay.next (g := [32]) (b := [45]) (gap_blanks (by decide)) (word_written (cs := ['-']) (by decide) (by decide)) ?_
  refine Lay.next (g := [32]) (b := [49]) (gap_blanks (by decide)) ⟨[], [[49]], [], rfl, rfl, Or.inl rfl, by decide, by decide, by decide, by decide, by decide, by decide⟩ ?_
  refine Lay.next (g := []) (b := [41]) (gap_blanks (by decide)) rfl ?_
  refine Lay.next (g := []) (b := [46]) (gap_blanks (by decide)) rfl ?_
  refine Lay.next (g := [32]) (b := [125]) (gap_blanks (by decide)) rfl ?_
  refine Lay.next (g := []) (b := [46]) (gap_blanks (by decide)) rfl ?_
  refine Lay.next (g := [10, 32, 32]) (b := [60, 45]) (gap_blanks (by decide)) ⟨rfl, rfl⟩ ?_
  refine Lay.next (g := [32]) (b := [114]) (gap_blanks (by decide)) (word_written (cs := ['r']) (by decide) (by decide)) ?_
  refine Lay.next (g := []) (b := [46]) (gap_blanks (by decide)) rfl ?_
  refine Lay.next (g := [10]) (b := [125]) (gap_blanks (by decide)) rfl ?_
  refine Lay.next (g := []) (b := [46]) (gap_blanks (by decide)) rfl ?_
  refine Lay.next (g := [10]) (b := [62, 62]) (gap_blanks (by decide)) (word_written (cs := ['>', '>']) (by decide) (by decide)) ?_
  refine Lay.next (g := [32]) (b := [120]) (gap_blanks (by decide)) (word_written (cs := ['x']) (by decide) (by decide)) ?_
  refine Lay.next (g := [32]) (b := [58, 61]) (gap_blanks (by decide)) (Or.inl rfl) ?_
  refine Lay.next (g := [32]) (b := [102, 97, 99]) (gap_blanks (by decide)) (word_written (cs := ['f', 'a', 'c']) (by decide) (by decide)) ?_
  refine Lay.next (g := [32]) (b := [97, 112, 112, 108, 121]) (gap_blanks (by decide)) (word_written (cs := ['a', 'p', 'p', 'l', 'y']) (by decide) (by decide)) ?_
  refine Lay.next (g := []) (b := [58]) (gap_blanks (by decide)) ⟨rfl, by decide⟩ ?_
  refine Lay.next (g := [32]) (b := [53]) (gap_blanks (by decide)) ⟨[], [[53]], [], rfl, rfl, Or.inl rfl, by decide, by decide, by decide, by decide, by decide, by decide⟩ ?_
  refine Lay.next (g := []) (b := [46]) (gap_blanks (by decide)) rfl ?_
  exact Lay.done (g := [10]) (gap_blanks (by decide))

/-- The variable has this whole number as its value at the end. -/
def gives (W : Words) (n : Nat) (es : List Node) (x : List UInt8) (z : Int) : Bool :=
  match Spec.Program.stmts (Spec.Program.exec W n) es [Spec.Program.globals W] with
  | some (.ok _, [f]) =>
    match f x with
    | some (.num w) => decide (w = z)
    | _ => false
  | _ => false

theorem of_gives {W : Words} {n : Nat} {es : List Node} {x : List UInt8} {z : Int} (h : gives W n es x z = true) :
    ∃ f, Ends W es f ∧ f x = some (.num z) := by
  unfold gives at h
  split at h
  · rename_i r f e
    split at h
    · rename_i w hw
      exact ⟨f, ⟨n, r, e⟩, by rw [hw, of_decide_eq_true h]⟩
    · cases h
  · cases h

/-- At the end of the example `sum` is 10 and `x` is 120. -/
theorem demo_gives : gives Spec.Program.english 60 demoTree [115, 117, 109] 10 = true ∧ gives Spec.Program.english 60 demoTree [120] 120 = true := by
  decide +kernel

/-! ## C102 -/

/-- What the user finds in a variable. -/
def Is (I : List UInt8 → Nat) (W : Words) (s : St) (o : Nat) : V → Prop
  | .num z => (s.obj o).val = .num z
  | .bool b => (s.obj o).val = .bool b
  | .code ps b => (s.obj o).val = .code (ps.map I) (lowerAll I W b)
  | .other => True

/-- The words can be told apart. -/
def Distinct (W : Words) : Prop :=
  [W.plus, W.minus, W.times, W.star, W.less, W.greater, W.atMost, W.atLeast, W.equal, W.unequal, W.modulo, W.absolute].Nodup ∧
  [W.ifTrue, W.ifFalse, W.otherwise, W.stop, W.next, W.not, W.and, W.or, W.equal, W.unequal].Nodup ∧
  [W.start, W.apply, W.applyAnd, W.times, W.star, W.whileTrue].Nodup ∧
  W.me ≠ W.my ∧ W.me ≠ W.task ∧ W.my ≠ W.task

instance (W : Words) : Decidable (Distinct W) := by unfold Distinct; infer_instance

theorem is_of_holds {I : List UInt8 → Nat} {W : Words} {s0 s : St} {fs : List Frame} {o : Nat} {v : V} (hw : World I W s0)
    (hr : Rep I W s0 s fs) (h : Holds I W s o v) : Is I W s o v := by
  cases v with
  | num z => simp only [Is, h.2]
  | bool b =>
    have ho : o = if b then Model.Interp.trueO else Model.Interp.falseO := h
    simp only [Is, ho, hr.bools hw b]
  | code ps b => simp only [Is, h.2]
  | other => trivial

/-- C102, for any world in which numbers, Booleans and blocks know their messages. -/
theorem C102_world (d : Dict) (hd : GoodDict d) (I : List UInt8 → Nat) (W : Words) (hN : Names I W) (hs : W.sign = d.param) (s0 : St)
    (hw : World I W s0) (es : List Node) (prg : List UInt8) (hg : gramStmts d es = true) (hl : Lay d (lexStmts d es) prg)
    (hf : fewStmts es = true) (f : Frame) (he : Ends W es f) :
    ∃ s' r N, (∀ n, N ≤ n → main d I W n prg s0 = .ok (s', r)) ∧ s'.flow = none ∧
      ∀ x, match f x with
        | some v => ∃ o, find s' (I x) = (s', o) ∧ Is I W s' o v
        | none => (find s' (I x)).1.flow.isSome = true := by
  obtain ⟨s', r, ⟨N, h1⟩, h2, h3⟩ := sim_program hN hw hf he
  refine ⟨s', r, N, fun n hn => ?_, h2, fun x => ?_⟩
  · obtain ⟨ps, _, hp⟩ := Parser.C34 d hd es prg hg hl
    have hW : ({ W with sign := d.param } : Words) = W := by rw [← hs]
    unfold main
    rw [hp, hW]
    exact h1 n hn
  · have hb := h3.scopes
    split
    · rename_i v hv
      obtain ⟨o, h4, h5⟩ := h3.find h2 (k := x) (v := v) (by simp only [Spec.Program.lookup, hv])
      exact ⟨o, h4, is_of_holds hw h3 h5⟩
    · rename_i hv
      cases hc : s'.ctxs with
      | nil => rw [hc] at hb; exact hb.elim
      | cons c cs =>
        rw [hc] at hb
        cases cs with
        | cons => exact hb.2.2.2.elim
        | nil =>
          have hk := hb.2.1 x
          rw [hv] at hk
          obtain rfl : c = Model.Interp.worldO := by
            have := h3.bottom
            rw [hc] at this
            exact Option.some.inj this
          have hk : Model.Interp.getp (s'.obj Model.Interp.worldO).props (I x) = none := hk
          simp only [find, h2, Option.isSome_none, Bool.false_eq_true, if_false, hc, Model.Interp.findIn, hk]
          rfl

example : ∃ f, GoodDict Spec.english ∧ Names (intern Spec.Program.english) Spec.Program.english ∧
    World (intern Spec.Program.english) Spec.Program.english (start (intern Spec.Program.english) Spec.Program.english) ∧
    gramStmts Spec.english demoTree = true ∧ Lay Spec.english (lexStmts Spec.english demoTree) demo ∧ fewStmts demoTree = true ∧
    Ends Spec.Program.english demoTree f ∧ f [120] = some (.num 120) := by
  obtain ⟨f, h1, h2⟩ := of_gives demo_gives.2
  have hn := intern_names Spec.Program.english (by decide) (by decide) (by decide)
  exact ⟨f, by decide, hn, world_start hn.inj (by decide) (by decide) (by decide), by decide +kernel, demo_lay, by decide +kernel, h1, h2⟩

/-- C102: take a program text in any layout that has a meaning. If by the meaning of its words it ends with certain variables, then
the parser accepts it, the interpreter executes it to its end without an error, and thereafter the variables have the values they
should have, and no other names are known. -/
theorem C102 (d : Dict) (hd : GoodDict d) (W : Words) (hW : Distinct W) (hs : W.sign = d.param)
    (es : List Node) (prg : List UInt8) (hg : gramStmts d es = true) (hl : Lay d (lexStmts d es) prg)
    (hf : fewStmts es = true) (f : Frame) (he : Ends W es f) :
    ∃ s' r N, (∀ n, N ≤ n → main d (intern W) W n prg (start (intern W) W) = .ok (s', r)) ∧ s'.flow = none ∧
      ∀ x, match f x with
        | some v => ∃ o, find s' (intern W x) = (s', o) ∧ Is (intern W) W s' o v
        | none => (find s' (intern W x)).1.flow.isSome = true := by
  obtain ⟨h1, h2, h3, h4, h5, h6⟩ := hW
  have hn := intern_names W h4 h5 h6
  exact C102_world d hd (intern W) W hn hs _ (world_start hn.inj h1 h2 h3) es prg hg hl hf f he

example : ∃ f, GoodDict Spec.english ∧ Distinct Spec.Program.english ∧ Spec.Program.english.sign = Spec.english.param ∧
    gramStmts Spec.english demoTree = true ∧ Lay Spec.english (lexStmts Spec.english demoTree) demo ∧ fewStmts demoTree = true ∧
    Ends Spec.Program.english demoTree f ∧ f [115, 117, 109] = some (.num 10) := by
  obtain ⟨f, h1, h2⟩ := of_gives demo_gives.1
  exact ⟨f, by decide, by decide, rfl, by decide +kernel, demo_lay, by decide +kernel, h1, h2⟩

/-! ## An algorithm -/

/-- C102 for Euclid's algorithm, with two numbers in any layout: the program ends with the greatest common divisor in `a`. -/
theorem C102_euclid (ta tb : List UInt8) (x y : Nat) (ha : Spec.Program.literal ta = some (x : Int)) (hb : Spec.Program.literal tb = some (y : Int))
    (prg : List UInt8) (hg : gramStmts Spec.english (Spec.Program.euclid ta tb) = true)
    (hl : Lay Spec.english (lexStmts Spec.english (Spec.Program.euclid ta tb)) prg) :
    ∃ s' r N o, (∀ n, N ≤ n → main Spec.english (intern Spec.Program.english) Spec.Program.english n prg
        (start (intern Spec.Program.english) Spec.Program.english) = .ok (s', r)) ∧ s'.flow = none ∧
      find s' (intern Spec.Program.english [97]) = (s', o) ∧ (s'.obj o).val = .num (Nat.gcd x y) := by
  obtain ⟨f, h1, h2⟩ := Spec.Program.euclid_ends ta tb x y ha hb
  obtain ⟨s', r, N, h3, h4, h5⟩ := C102 Spec.english (by decide) Spec.Program.english (by decide) rfl (Spec.Program.euclid ta tb) prg hg hl
    (by simp only [Spec.Program.euclid, fewStmts, Spec.Program.few, Spec.Program.fewMsgs, Spec.Program.fewArgs]; rfl) f h1
  have h6 := h5 [97]
  rw [h2] at h6
  obtain ⟨o, h7, h8⟩ := h6
  exact ⟨s', r, N, o, h3, h4, h7, h8⟩

/-- The program
```
    >> a := 36.
    >> b := 60.
    {
      >> t := a modulo: b.
      a := b.
      b := t.
    } while: { <- b ≠ 0. }.
``` -/
def divisor : List UInt8 :=
  [62, 62, 32, 97, 32, 58, 61, 32, 51, 54, 46, 10, 62, 62, 32, 98, 32, 58, 61, 32, 54, 48, 46, 10, 123, 10, 32, 32, 62, 62, 32, 116, 32, 58, 61, 32, 97, 32, 109, 111, 100, 117, 108, 111, 58, 32, 98, 46, 10, 32, 32, 97, 32, 58, 61, 32, 98, 46, 10, 32, 32, 98, 32, 58, 61, 32, 116, 46, 10, 125, 32, 119, 104, 105, 108, 101, 58, 32, 123, 32, 60, 45, 32, 98, 32, 226, 137, 160, 32, 48, 46, 32, 125, 46, 10]

theorem divisor_lexemes : lexStmts Spec.english (Spec.Program.euclid [51, 54] [54, 48]) =
    [.word [62, 62], .word [97], .assign, .num [51, 54], .eol, .word [62, 62], .word [98], .assign, .num [54, 48], .eol, .bopen, .word [62, 62], .word [116], .assign, .word [97], .word [109, 111, 100, 117, 108, 111], .colon, .word [98], .eol, .word [97], .assign, .word [98], .eol, .word [98], .assign, .word [116], .eol, .bclose, .word [119, 104, 105, 108, 101], .colon, .bopen, .ret, .word [98], .word [226, 137, 160], .num [48], .eol, .bclose, .eol] := by
  unfold Spec.Program.euclid Spec.Program.euclidBody Spec.Program.euclidCond
  simp only [lexStmts, lexemes, lexMsgs, lexArgs]
  rfl

theorem divisor_lay : Lay Spec.english (lexStmts Spec.english (Spec.Program.euclid [51, 54] [54, 48])) divisor := by
  rw [divisor_lexemes]
  unfold divisor
  refine Lay.next (g := []) (b := [62, 62]) (gap_blanks (by decide)) (word_written (cs := ['>', '>']) (by decide) (by decide)) ?_
  refine Lay.next (g := [32]) (b := [97]) (gap_blanks (by decide)) (word_written (cs := ['a']) (by decide) (by decide)) ?_
  refine Lay.next (g := [32]) (b := [58, 61]) (gap_blanks (by decide)) (Or.inl rfl) ?_
  refine Lay.next (g := [32]) (b := [51, 54]) (gap_blanks (by decide)) ⟨[], [[51, 54]], [], rfl, rfl, Or.inl rfl, by decide, by decide, by decide, by decide, by decide, by decide⟩ ?_
  refine Lay.next (g := []) (b := [46]) (gap_blanks (by decide)) rfl ?_
  refine Lay.next (g := [10]) (b := [62, 62]) (gap_blanks (by decide)) (word_written (cs := ['>', '>']) (by decide) (by decide)) ?_
  refine Lay.next (g := [32]) (b := [98]) (gap_blanks (by decide)) (word_written (cs := ['b']) (by decide) (by decide)) ?_
  refine Lay.next (g := [32]) (b := [58, 61]) (gap_blanks (by decide)) (Or.inl rfl) ?_
  refine Lay.next (g := [32]) (b := [54, 48]) (gap_blanks (by decide)) ⟨[], [[54, 48]], [], rfl, rfl, Or.inl rfl, by decide, by decide, by decide, by decide, by decide, by decide⟩ ?_
  refine Lay.next (g := []) (b := [46]) (gap_blanks (by decide)) rfl ?_
  refine Lay.next (g := [10]) (b := [123]) (gap_blanks (by decide)) rfl ?_
  refine Lay.next (g := [10, 32, 32]) (b := [62, 62]) (gap_blanks (by decide)) (word_written (cs := ['>', '>']) (by decide) (by decide)) ?_
  refine Lay.next (g := [32]) (b := [116]) (gap_blanks (by decide)) (word_written (cs := ['t']) (by decide) (by decide)) ?_
  refine Lay.next (g := [32]) (b := [58, 61]) (gap_blanks (by decide)) (Or.inl rfl) ?_
  refine Lay.next (g := [32]) (b := [97]) (gap_blanks (by decide)) (word_written (cs := ['a']) (by decide) (by decide)) ?_
  refine Lay.next (g := [32]) (b := [109, 111, 100, 117, 108, 111]) (gap_blanks (by decide)) (word_written (cs := ['m', 'o', 'd', 'u', 'l', 'o']) (by decide) (by decide)) ?_
  refine Lay.next (g := []) (b := [58]) (gap_blanks (by decide)) ⟨rfl, by decide⟩ ?_
  refine Lay.next (g := [32]) (b := [98]) (gap_blanks (by decide)) (word_written (cs := ['b']) (by decide) (by decide)) ?_
  refine Lay.next (g := []) (b := [46]) (gap_blanks (by decide)) rfl ?_
  refine Lay.next (g := [10, 32, 32]) (b := [97]) (gap_blanks (by decide)) (word_written (cs := ['a']) (by decide) (by decide)) ?_
  refine Lay.next (g := [32]) (b := [58, 61]) (gap_blanks (by decide)) (Or.inl rfl) ?_
  refine Lay.next (g := [32]) (b := [98]) (gap_blanks (by decide)) (word_written (cs := ['b']) (by decide) (by decide)) ?_
  refine Lay.next (g := []) (b := [46]) (gap_blanks (by decide)) rfl ?_
  refine Lay.next (g := [10, 32, 32]) (b := [98]) (gap_blanks (by decide)) (word_written (cs := ['b']) (by decide) (by decide)) ?_
  refine Lay.next (g := [32]) (b := [58, 61]) (gap_blanks (by decide)) (Or.inl rfl) ?_
  refine Lay.next (g := [32]) (b := [116]) (gap_blanks (by decide)) (word_written (cs := ['t']) (by decide) (by decide)) ?_
  refine Lay.next (g := []) (b := [46]) (gap_blanks (by decide)) rfl ?_
  refine Lay.next (g := [10]) (b := [125]) (gap_blanks (by decide)) rfl ?_
  refine Lay.next (g := [32]) (b := [119, 104, 105, 108, 101]) (gap_blanks (by decide)) (word_written (cs := ['w', 'h', 'i', 'l', 'e']) (by decide) (by decide)) ?_
  refine Lay.next (g := []) (b := [58]) (gap_blanks (by decide)) ⟨rfl, by decide⟩ ?_
  refine Lay.next (g := [32]) (b := [123]) (gap_blanks (by decide)) rfl ?_
  refine Lay.next (g := [32]) (b := [60, 45]) (gap_blanks (by decide)) ⟨rfl, rfl⟩ ?_
  refine Lay.next (g := [32]) (b := [98]) (gap_blanks (by decide)) (word_written (cs := ['b']) (by decide) (by decide)) ?_
  refine Lay.next (g := [32]) (b := [226, 137, 160]) (gap_blanks (by decide)) (word_written (cs := ['≠']) (by decide) (by decide)) ?_
  refine Lay.next (g := [32]) (b := [48]) (gap_blanks (by decide)) ⟨[], [[48]], [], rfl, rfl, Or.inl rfl, by decide, by decide, by decide, by decide, by decide, by decide⟩ ?_
  refine Lay.next (g := []) (b := [46]) (gap_blanks (by decide)) rfl ?_
  refine Lay.next (g := [32]) (b := [125]) (gap_blanks (by decide)) rfl ?_
  refine Lay.next (g := []) (b := [46]) (gap_blanks (by decide)) rfl ?_
  exact Lay.done (g := [10]) (gap_blanks (by decide))

example : Spec.Program.literal [51, 54] = some (36 : Int) ∧ Spec.Program.literal [54, 48] = some (60 : Int) ∧
    gramStmts Spec.english (Spec.Program.euclid [51, 54] [54, 48]) = true ∧
    Lay Spec.english (lexStmts Spec.english (Spec.Program.euclid [51, 54] [54, 48])) divisor ∧ Nat.gcd 36 60 = 12 :=
  ⟨by decide +kernel, by decide +kernel, by decide +kernel, divisor_lay, by decide⟩

end Verif.Props.Program
