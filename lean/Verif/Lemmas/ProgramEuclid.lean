import Verif.Spec.Program

/-!
# Lemmas: Euclid's algorithm as a program
-/

namespace Verif.Spec.Program
open Verif.Spec (Node)

local notation "W" => Verif.Spec.Program.english

/-- `>> t := a modulo: b. a := b. b := t.` -/
def euclidBody : List Node :=
  [.assign (.ref 2 [116]) (.msg (.ref 0 [97]) [.kw [[109, 111, 100, 117, 108, 111]] [.ref 0 [98]]]),
   .assign (.ref 0 [97]) (.ref 0 [98]), .assign (.ref 0 [98]) (.ref 0 [116])]
/-- `<- b ≠ 0.` -/
def euclidCond : List Node := [.ret (.msg (.ref 0 [98]) [.bin [226, 137, 160] (.num [48])])]

/-- `>> a := ... >> b := ... { ... } while: { ... }.` -/
def euclid (ta tb : List UInt8) : List Node :=
  [.assign (.ref 2 [97]) (.num ta), .assign (.ref 2 [98]) (.num tb),
   .msg (.block [] euclidBody) [.kw [[119, 104, 105, 108, 101]] [.block [] euclidCond]]]

theorem lit0 : literal [48] = some 0 := by decide +kernel

theorem euclid_cond (k : Nat) (f : Frame) (y : Int) (h : f [98] = some (.num y)) :
    exec W (k + 4) (.call [] euclidCond [] false) [f] = some (.ok (.bool (decide (y ≠ 0))), [f]) := by
  have e : entry W [] euclidCond [] false [98] = none := rfl
  have hf : fewStmts euclidCond = true := by decide +kernel
  have hc : stmts (exec W (k + 3)) euclidCond [entry W [] euclidCond [] false, f] =
      some (.ok (some (.bool (decide (y ≠ 0)))), [entry W [] euclidCond [] false, f]) := by
    generalize entry W [] euclidCond [] false = g at e
    simp [euclidCond, stmts, exec, expr, M.andThen, M.lift, M.ret, lookup, e, h, chain, args, lit0, send, number, english]
  show enter W (exec W (k + 3)) [] euclidCond [] false [f] = _
  simp only [enter, hc, hf, List.length_cons, List.length_nil]
  rfl

theorem euclid_body (k : Nat) (f : Frame) (x y : Nat) (ha : f [97] = some (.num x)) (hb : f [98] = some (.num y)) (hy : y ≠ 0) :
    exec W (k + 4) (.call [] euclidBody [] false) [f] =
      some (.ok (.code [] euclidBody), [upd (upd f [97] (.num y)) [98] (.num (x % y : Nat))]) := by
  have e1 : entry W [] euclidBody [] false [97] = none := rfl
  have e2 : entry W [] euclidBody [] false [98] = none := rfl
  have hf : fewStmts euclidBody = true := by decide +kernel
  have hc : ∃ g, stmts (exec W (k + 3)) euclidBody [entry W [] euclidBody [] false, f] =
      some (.ok none, [g, upd (upd f [97] (.num y)) [98] (.num (x % y : Nat))]) := by
    generalize entry W [] euclidBody [] false = g at e1 e2
    have hm : (x : Int).tmod y = (x % y : Nat) := by
      rw [Int.tmod_eq_emod_of_nonneg (by omega)]; rfl
    refine ⟨upd g [116] (.num (x % y : Nat)), ?_⟩
    simp [euclidBody, stmts, exec, expr, M.andThen, M.lift, M.ret, lookup, e1, e2, ha, hb, chain, args, send, number, english, selector,
      declare, assign, upd, hy, hm]
  obtain ⟨g, hc⟩ := hc
  show enter W (exec W (k + 3)) [] euclidBody [] false [f] = _
  simp only [enter, hc, hf, List.length_cons, List.length_nil]
  rfl

theorem euclid_loop : ∀ (y x : Nat) (f : Frame), f [97] = some (.num x) → f [98] = some (.num y) →
    ∃ f', f' [97] = some (.num (Nat.gcd x y)) ∧ ∀ m, exec W (y + 5 + m) (.loop euclidBody euclidCond) [f] =
      some (.ok (.code [] euclidBody), [f']) := by
  intro y
  induction y using Nat.strongRecOn with
  | _ y ih =>
    intro x f ha hb
    have hl : ∀ m, exec W (y + 5 + m) (.loop euclidBody euclidCond) [f] = loop (exec W (y + 4 + m)) euclidBody euclidCond [f] := fun m => by
      rw [show y + 5 + m = (y + 4 + m) + 1 by omega]; rfl
    have hc : ∀ m, exec W (y + 4 + m) (.call [] euclidCond [] false) [f] = some (.ok (.bool (decide ((y : Int) ≠ 0))), [f]) := fun m => by
      rw [show y + 4 + m = (y + m) + 4 by omega]; exact euclid_cond _ f y hb
    by_cases hy : y = 0
    · subst hy
      refine ⟨f, by rw [ha, Nat.gcd_zero_right], fun m => ?_⟩
      rw [hl]
      simp only [loop, hc]
      rfl
    · obtain ⟨f', h1, h2⟩ := ih (x % y) (Nat.mod_lt _ (by omega)) y (upd (upd f [97] (.num y)) [98] (.num (x % y : Nat))) rfl rfl
      refine ⟨f', by rw [h1, Nat.gcd_comm x y, Nat.gcd_rec y x, Nat.gcd_comm], fun m => ?_⟩
      have hb' : exec W (y + 4 + m) (.call [] euclidBody [] false) [f] =
          some (.ok (.code [] euclidBody), [upd (upd f [97] (.num y)) [98] (.num (x % y : Nat))]) := by
        rw [show y + 4 + m = (y + m) + 4 by omega]; exact euclid_body _ f x y ha hb hy
      have hlt := Nat.mod_lt x (show y > 0 by omega)
      have ht : decide ((y : Int) ≠ 0) = true := decide_eq_true (by omega)
      rw [hl]
      simp only [loop, hc, ht, hb']
      rw [show y + 4 + m = x % y + 5 + (y - x % y - 1 + m) by omega]
      exact h2 _

theorem euclid_ends (ta tb : List UInt8) (x y : Nat) (ha : literal ta = some (x : Int)) (hb : literal tb = some (y : Int)) :
    ∃ f, Ends W (euclid ta tb) f ∧ f [97] = some (.num (Nat.gcd x y)) := by
  obtain ⟨f', h1, h2⟩ := euclid_loop y x (upd (upd (globals W) [97] (.num x)) [98] (.num y)) rfl rfl
  refine ⟨f', ⟨y + 6, none, ?_⟩, h1⟩
  have h3 := h2 0
  simp only [Nat.add_zero] at h3
  simp [euclid, stmts, exec, expr, M.andThen, M.lift, M.ret, ha, hb, chain, args, send, block, english, selector, declare]
  have h4 : loop (exec english (y + 4)) euclidBody euclidCond [upd (upd (globals english) [97] (.num x)) [98] (.num y)] =
    some (.ok (.code [] euclidBody), [f']) := h3
  simp only [english] at h4
  rw [h4]

end Verif.Spec.Program
