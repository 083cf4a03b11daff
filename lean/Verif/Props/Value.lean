import Verif.Model.Value
import Verif.Spec.Value
import Verif.Props.Text

/-! # Truth, comparison and equality of values: properties -/

namespace Verif.Props.Value

open Verif.Model Verif.Model.Num Verif.Model.Value
open Verif.Spec.Value (StrictOrder Equality)

theorem ok_bind' {α β : Type} (a : α) (f : α → Out β) : (Out.ok a).bind f = f a := rfl

/-! ### Truth -/

/-- The values that count as false: `Nil`, `False`, zero and the empty text. -/
def Falsy : Value → Prop
  | .nil => True
  | .bool b => b = false
  | .num (.fin m _) => m = 0
  | .num _ => False
  | .text t => t = []
  | .object _ => False
  | .code _ => False

instance (v : Value) : Decidable (Falsy v) := by
  cases v with
  | num x => cases x <;> unfold Falsy <;> infer_instance
  | _ => unfold Falsy; infer_instance

/-- Numbers that are zero or at least one in size and less than 2³¹; all other values. -/
def Sized : Value → Prop
  | .num (.fin m k) => (m = 0 ∨ 2 ^ k ≤ m.natAbs) ∧ m.natAbs < 2147483648 * 2 ^ k
  | .num _ => False
  | _ => True

theorem tdiv_spec {m : Int} {k : Nat} (h1 : m = 0 ∨ 2 ^ k ≤ m.natAbs) (h2 : m.natAbs < 2147483648 * 2 ^ k) :
    InInt (m.tdiv (2 ^ k)) ∧ (m.tdiv (2 ^ k) = 0 ↔ m = 0) := by
  have hp : 0 < 2 ^ k := Nat.two_pow_pos k
  have ha : (m.tdiv (2 ^ k)).natAbs = m.natAbs / 2 ^ k := by
    rw [Int.natAbs_tdiv, Int.natAbs_pow]
    rfl
  have hlt : m.natAbs / 2 ^ k < 2147483648 := Nat.div_lt_of_lt_mul (by rw [Nat.mul_comm]; exact h2)
  constructor
  · unfold InInt
    omega
  · constructor
    · intro h
      rcases h1 with h1 | h1
      · exact h1
      · have : 1 ≤ m.natAbs / 2 ^ k := (Nat.le_div_iff_mul_le hp).2 (by rw [Nat.one_mul]; exact h1)
        rw [h] at ha
        simp at ha
        omega
    · intro h
      rw [h, Int.zero_tdiv]

/-- C68, for numbers that are zero or at least one in size and less than 2³¹: `Nil`, `False`, zero and the empty text are false,
everything else is true. -/
theorem C68_truth_partial (v : Value) (h : Sized v) : castBool v = .ok (decide (¬ Falsy v)) := by
  cases v with
  | nil => rfl
  | bool b => cases b <;> rfl
  | text t => cases t <;> rfl
  | object i => rfl
  | code i => rfl
  | num x =>
    cases x with
    | nan => exact absurd h id
    | inf b => exact absurd h id
    | fin m k =>
      obtain ⟨hi, hz⟩ := tdiv_spec h.1 h.2
      show (Dbl.toInt (.fin m k)).bind _ = _
      unfold Dbl.toInt
      dsimp only
      rw [if_pos hi, ok_bind', buildBool]
      congr 1
      by_cases hm : m = 0
      · have h1 : Falsy (.num (.fin m k)) := hm
        rw [hz.2 hm, decide_eq_false (not_not_intro h1)]
        rfl
      · have h1 : ¬ Falsy (.num (.fin m k)) := hm
        rw [decide_eq_true h1]
        simp [hz, hm]

example : castBool (.num (.fin 3 1)) = .ok true := C68_truth_partial (.num (.fin 3 1)) ⟨.inr (by decide), by decide⟩
example : castBool (.text [48]) = .ok true := C68_truth_partial (.text [48]) trivial

theorem big_ub (n : Int) (hn : 2147483648 ≤ n) : castBool (.num (.ofInt n)) = .ub := by
  have hi : ¬ InInt (n.tdiv (2 ^ 0)) := by
    rw [show ((2 : Int) ^ 0) = 1 from rfl, Int.tdiv_one]
    unfold InInt; omega
  have h2 : Dbl.toInt (.fin n 0) = .ub := if_neg hi
  rw [castBool, numberToBool, Dbl.ofInt, h2]
  rfl

/-- C68 fails for numbers between -1 and 1, which are false, and for large ones. -/
theorem C68_truth_violated :
    (∀ k, 0 < k → castBool (.num (.fin 1 k)) = .ok false ∧ ¬ Falsy (.num (.fin 1 k))) ∧
    (∀ n : Int, 2147483648 ≤ n → castBool (.num (.ofInt n)) = .ub) := by
  constructor
  · intro k hk
    refine ⟨?_, (by decide : ¬ (1 : Int) = 0)⟩
    have h2 : (1 : Int) < 2 ^ k := by
      have : 2 ^ 1 ≤ 2 ^ k := Nat.pow_le_pow_right (by decide) hk
      have h3 : ((2 ^ 1 : Nat) : Int) ≤ ((2 ^ k : Nat) : Int) := Int.ofNat_le.2 this
      have h5 : ((2 ^ k : Nat) : Int) = 2 ^ k := Int.natCast_pow 2 k
      have h6 : ((2 ^ 1 : Nat) : Int) = 2 := rfl
      omega
    have h0 : Int.tdiv 1 (2 ^ k) = 0 := Int.tdiv_eq_zero_of_lt (by decide) h2
    have h4 : Dbl.toInt (.fin 1 k) = .ok 0 := by
      rw [Dbl.toInt, h0]
      exact if_pos (by unfold InInt; omega)
    rw [castBool, numberToBool, h4]
    rfl
  · intro n hn
    exact big_ub n hn

/-- C68: `not`, `&&:`, `||:`, `nor:`, `=`, `≠`, `either:or:`, `true:` and `false:` follow the truth of their arguments; exactly one
of `true:` and `false:` runs its code. -/
theorem C68_logic_partial (g : Lang) (b : Bool) (v w : Value) (h : Sized v) :
    boolNot b = !b ∧ boolAnd b v = .ok (decide (b = true ∧ ¬ Falsy v)) ∧ boolOr b v = .ok (decide (b = true ∨ ¬ Falsy v)) ∧
    boolNor b v = .ok (decide (¬ (b = true ∨ ¬ Falsy v))) ∧ equals g (.bool b) v = .ok (decide (b = true ↔ ¬ Falsy v)) ∧
    unequals g (.bool b) v = .ok (decide (¬ (b = true ↔ ¬ Falsy v))) ∧ (b = true → eitherOr b v w = v) ∧
    (b = false → eitherOr b v w = w) ∧ ifTrue v = .ok (decide (¬ Falsy v)) ∧ ifFalse v = .ok (decide (Falsy v)) := by
  have hc := C68_truth_partial v h
  refine ⟨by cases b <;> rfl, ?_, ?_, ?_, ?_, ?_, ?_, ?_, ?_, ?_⟩
  · rw [boolAnd, hc, ok_bind']; cases b <;> by_cases hf : Falsy v <;> simp [hf]
  · rw [boolOr, hc, ok_bind']; cases b <;> by_cases hf : Falsy v <;> simp [hf]
  · rw [boolNor, hc, ok_bind']; cases b <;> by_cases hf : Falsy v <;> simp [hf]
  · rw [equals, hc, ok_bind']; cases b <;> by_cases hf : Falsy v <;> simp [hf]
  · rw [unequals, hc, ok_bind']; cases b <;> by_cases hf : Falsy v <;> simp [hf]
  · intro hb; rw [eitherOr, if_pos hb]
  · intro hb; rw [eitherOr, hb]; rfl
  · rw [ifTrue, hc, ok_bind']
  · rw [ifFalse, hc, ok_bind']; by_cases hf : Falsy v <;> simp [hf]

example : boolAnd true (.num (.ofInt 7)) = .ok true :=
  (C68_logic_partial ⟨fun _ => .nan, fun _ => .ub, ⟨[44], [46]⟩, [], [], [], [], []⟩ true (.num (.ofInt 7)) .nil
    ⟨.inr (by decide), by decide⟩).2.1

/-! ### Order -/

/-- A number that is not the result of an impossible calculation. -/
def Proper (x : Dbl) : Prop := x ≠ .nan

theorem pow_pos' (k : Nat) : (0 : Int) < 2 ^ k := Int.pow_pos (by decide)

theorem cross_trans {a b c p q r : Int} (hq : 0 < q) (hp : 0 < p) (hr : 0 < r) (h1 : a * q ≤ b * p) (h2 : b * r ≤ c * q) :
    a * r ≤ c * p ∧ (a * q < b * p ∨ b * r < c * q → a * r < c * p) := by
  have h3 := Int.mul_le_mul_of_nonneg_right h1 (Int.le_of_lt hr)
  have h4 := Int.mul_le_mul_of_nonneg_right h2 (Int.le_of_lt hp)
  have e1 : a * q * r = a * r * q := Int.mul_right_comm ..
  have e2 : b * p * r = b * r * p := Int.mul_right_comm ..
  have e3 : c * q * p = c * p * q := Int.mul_right_comm ..
  constructor
  · exact Int.le_of_mul_le_mul_right (by omega) hq
  · intro h
    refine Int.lt_of_mul_lt_mul_right (a := q) ?_ (Int.le_of_lt hq)
    rcases h with h | h
    · have := Int.mul_lt_mul_of_pos_right h hr
      omega
    · have := Int.mul_lt_mul_of_pos_right h hp
      omega

theorem dlt_order : StrictOrder Proper dlt Dbl.eq := by
  constructor
  · intro x hx
    cases x with
    | nan => rfl
    | inf a => cases a <;> rfl
    | fin m k => simp [dlt]
  · intro x y z hx hy hz
    cases x with
    | nan => exact absurd rfl hx
    | inf a =>
      cases y with
      | nan => exact absurd rfl hy
      | inf b => cases z <;> cases a <;> cases b <;> simp [dlt]
      | fin n l => cases z <;> cases a <;> simp [dlt]
    | fin m k =>
      cases y with
      | nan => exact absurd rfl hy
      | inf b => cases z <;> cases b <;> simp [dlt]
      | fin n l =>
        cases z with
        | nan => exact absurd rfl hz
        | inf c => cases c <;> simp [dlt]
        | fin o j =>
          intro h1 h2
          have h1 := of_decide_eq_true h1
          have h2 := of_decide_eq_true h2
          exact decide_eq_true ((cross_trans (pow_pos' l) (pow_pos' k) (pow_pos' j) (Int.le_of_lt h1) (Int.le_of_lt h2)).2 (.inl h1))
  · intro x y hx hy
    cases x with
    | nan => exact absurd rfl hx
    | inf a =>
      cases y with
      | nan => exact absurd rfl hy
      | inf b => cases a <;> cases b <;> simp [dlt, Dbl.eq]
      | fin n l => cases a <;> simp [dlt, Dbl.eq]
    | fin m k =>
      cases y with
      | nan => exact absurd rfl hy
      | inf b => cases b <;> simp [dlt, Dbl.eq]
      | fin n l =>
        simp only [dlt, Dbl.eq, decide_eq_true_eq, decide_eq_false_iff_not, beq_iff_eq, beq_eq_false_iff_ne]
        omega
  · intro x y z hx hy hz
    cases x with
    | nan => exact absurd rfl hx
    | inf a =>
      cases y with
      | nan => exact absurd rfl hy
      | inf b => cases z <;> cases a <;> cases b <;> simp [dlt, Dbl.eq]
      | fin n l => simp [Dbl.eq]
    | fin m k =>
      cases y with
      | nan => exact absurd rfl hy
      | inf b => simp [Dbl.eq]
      | fin n l =>
        cases z with
        | nan => exact absurd rfl hz
        | inf c => cases c <;> simp [dlt]
        | fin o j =>
          simp only [dlt, Dbl.eq, beq_iff_eq, decide_eq_decide]
          intro he
          constructor
          · constructor
            · intro h
              exact (cross_trans (pow_pos' k) (pow_pos' l) (pow_pos' j) (by omega) (Int.le_of_lt h)).2 (.inr h)
            · intro h
              exact (cross_trans (pow_pos' l) (pow_pos' k) (pow_pos' j) (by omega) (Int.le_of_lt h)).2 (.inr h)
          · constructor
            · intro h
              exact (cross_trans (pow_pos' k) (pow_pos' j) (pow_pos' l) (Int.le_of_lt h) (by omega)).2 (.inl h)
            · intro h
              exact (cross_trans (pow_pos' l) (pow_pos' j) (pow_pos' k) (Int.le_of_lt h) (by omega)).2 (.inl h)

/-- C69, for numbers that are not the result of an impossible calculation: `<` is a strict order in which any two different
numbers can be compared, and `>`, `≤`, `≥`, `=`, `≠`, `positive?` and `negative?` agree with it. -/
theorem C69_order_partial (g : Lang) :
    StrictOrder Proper (fun x y => lowerThan g x (.num y)) (fun x y => numberEq g x (.num y)) ∧
    (∀ x y, higherThan g x (.num y) = lowerThan g y (.num x)) ∧
    (∀ x y, Proper x → Proper y → lowerEqThan g x (.num y) = !(higherThan g x (.num y)) ∧
      higherEqThan g x (.num y) = !(lowerThan g x (.num y))) ∧
    (∀ x y, numberNeq g x (.num y) = !(numberEq g x (.num y))) ∧
    (∀ x, positive x = lowerThan g (.ofInt 0) (.num x) ∧ negative x = lowerThan g x (.num (.ofInt 0))) ∧
    (∀ m n : Int, lowerThan g (.ofInt m) (.num (.ofInt n)) = decide (m < n)) := by
  have hgt : ∀ x y : Dbl, x.gt y = dlt y x := by
    intro x y
    cases x with
    | nan => cases y <;> rfl
    | inf a =>
      cases y with
      | inf b => cases a <;> cases b <;> rfl
      | _ => rfl
    | fin m k => cases y <;> rfl
  refine ⟨dlt_order, fun x y => hgt x y, ?_, fun x y => rfl, fun x => ⟨hgt x _, rfl⟩, ?_⟩
  · intro x y hx hy
    show dle x y = !(x.gt y) ∧ dge x y = !(dlt x y)
    cases x with
    | nan => exact absurd rfl hx
    | inf a =>
      cases y with
      | nan => exact absurd rfl hy
      | inf b => cases a <;> cases b <;> exact ⟨rfl, rfl⟩
      | fin n l => cases a <;> exact ⟨rfl, rfl⟩
    | fin m k =>
      cases y with
      | nan => exact absurd rfl hy
      | inf b => cases b <;> exact ⟨rfl, rfl⟩
      | fin n l =>
        simp only [dle, dge, dlt, Dbl.gt]
        constructor
        · rw [← decide_not]; simp only [decide_eq_decide]; omega
        · rw [← decide_not]; simp only [decide_eq_decide]; omega
  · intro m n
    show decide (m * 2 ^ 0 < n * 2 ^ 0) = _
    simp

/-- One half and three quarters. -/
example (g : Lang) : lowerThan g (.fin 1 1) (.num (.fin 3 2)) = true ∧ higherThan g (.fin 1 1) (.num (.fin 3 2)) = false :=
  ⟨rfl, rfl⟩

/-- C69 fails for the result of an impossible calculation (`-1 square root`): it is not even equal to itself. -/
theorem C69_order_violated (g : Lang) (y : Dbl) :
    lowerThan g .nan (.num y) = false ∧ higherThan g .nan (.num y) = false ∧ numberEq g .nan (.num y) = false ∧
    numberEq g .nan (.num .nan) = false :=
  ⟨by cases y <;> rfl, by cases y <;> rfl, by cases y <;> rfl, rfl⟩

/-! ### Equality -/

/-- C70: `≠` is always the opposite of `=`. -/
theorem C70_opposite (g : Lang) (v w : Value) : unequals g v w = (equals g v w).bind fun b => .ok (!b) := by
  have ht : ∀ t o : Text, Txt.neq t o = (Txt.eq t o).bind fun b => .ok (!b) := by
    intro t o
    unfold Txt.eq Txt.neq
    split
    · rfl
    · cases Txt.strncmp o t t.length <;> rfl
  cases v with
  | bool b =>
    rw [unequals, equals]
    cases castBool w <;> rfl
  | num x => rfl
  | text t =>
    rw [unequals, equals]
    cases castText g w with
    | ok o => exact ht t o
    | ub => rfl
    | exit => rfl
  | nil => rw [unequals, equals, ok_bind', ← decide_not] <;> intro x h <;> cases h
  | object i => rw [unequals, equals, ok_bind', ← decide_not] <;> intro x h <;> cases h
  | code i => rw [unequals, equals, ok_bind', ← decide_not] <;> intro x h <;> cases h

example (g : Lang) : unequals g (.num (.fin 1 1)) (.num (.fin 2 2)) = .ok false := C70_opposite g _ _

/-- The kind of a value. -/
def kind : Value → Nat
  | .nil => 0
  | .bool _ => 1
  | .num _ => 2
  | .text _ => 3
  | .object _ => 4
  | .code _ => 5

theorem text_eq_iff (s t : Text) : ∃ b, Txt.eq s t = .ok b ∧ Txt.eq t s = .ok b := by
  obtain ⟨b, h1, _, h3, _⟩ := Verif.Props.Text.C26_always s t
  exact ⟨b, h1, h3⟩

/-- C70, for values of the same kind, without NUL bytes and impossible numbers: `=` is an equality. -/
theorem C70_equality_partial (g : Lang) (k : Nat) :
    Equality (fun v => kind v = k ∧ (∀ x, v = .num x → Proper x) ∧ (∀ t, v = .text t → (0 : UInt8) ∉ t)) (equals g) := by
  have htext : ∀ s t : Text, (0 : UInt8) ∉ s → Txt.eq s t = .ok (decide (s = t)) := by
    intro s t hs
    have := (Verif.Props.Text.C26_equality_partial s t hs).1
    exact this
  have hnum := dlt_order
  constructor
  · rintro v ⟨_, h2, h3⟩
    cases v with
    | bool b => cases b <;> rfl
    | num x =>
      show Out.ok (x.eq x) = _
      rcases hnum.tri x x (h2 x rfl) (h2 x rfl) with h | h | h
      · rw [hnum.irrefl x (h2 x rfl)] at h; exact absurd h.1 (by decide)
      · rw [h.2.1]
      · rw [hnum.irrefl x (h2 x rfl)] at h; exact absurd h.2.2 (by decide)
    | text t => exact (htext t t (h3 t rfl)).trans (by simp)
    | nil => rfl
    | object i => simp [equals]
    | code i => simp [equals]
  · rintro v w ⟨h1, h2, h3⟩ ⟨h4, h5, h6⟩
    cases v <;> cases w <;> simp only [kind] at h1 h4 <;> first | (exfalso; omega) | skip
    · rfl
    · next a b => cases a <;> cases b <;> rfl
    · next x y =>
      show Out.ok (x.eq y) = Out.ok (y.eq x)
      congr 1
      rcases hnum.tri x y (h2 x rfl) (h5 y rfl) with h | h | h <;>
        rcases hnum.tri y x (h5 y rfl) (h2 x rfl) with h' | h' | h' <;> grind
    · next s t =>
      show Txt.eq s t = Txt.eq t s
      obtain ⟨b, hb1, hb2⟩ := text_eq_iff s t
      rw [hb1, hb2]
    · simp [equals, eq_comm]
    · simp [equals, eq_comm]
  · rintro u v w ⟨h1, h2, h3⟩ ⟨h4, h5, h6⟩ ⟨h7, h8, h9⟩ huv hvw
    cases u <;> cases v <;> cases w <;> simp only [kind] at h1 h4 h7 <;> first | (exfalso; omega) | skip
    · rfl
    · next a b c => cases a <;> cases b <;> cases c <;> first | rfl | exact hvw | cases huv
    · next x y z =>
      have e1 : x.eq y = true := Out.ok.inj huv
      have e2 : y.eq z = true := Out.ok.inj hvw
      show Out.ok (x.eq z) = Out.ok true
      congr 1
      have c1 := hnum.congr x y z (h2 x rfl) (h5 y rfl) (h8 z rfl) e1
      rcases hnum.tri y z (h5 y rfl) (h8 z rfl) with h | h | h <;>
        rcases hnum.tri x z (h2 x rfl) (h8 z rfl) with h' | h' | h' <;> grind
    · next s t u =>
      have e1 : Txt.eq s t = .ok true := huv
      have e2 : Txt.eq t u = .ok true := hvw
      rw [htext s t (h3 s rfl)] at e1
      have e1 : s = t := of_decide_eq_true (Out.ok.inj e1)
      show Txt.eq s u = .ok true
      rw [e1]; exact e2
    · next i j l =>
      simp only [equals, Out.ok.injEq, decide_eq_true_eq, Value.object.injEq] at *
      omega
    · next i j l =>
      simp only [equals, Out.ok.injEq, decide_eq_true_eq, Value.code.injEq] at *
      omega

/-- One half written in two ways. -/
example (g : Lang) : equals g (.num (.fin 2 2)) (.num (.fin 1 1)) = equals g (.num (.fin 1 1)) (.num (.fin 2 2)) :=
  (C70_equality_partial g 2).symm _ _ ⟨rfl, (fun x h => by cases h; exact fun e => by cases e), (fun t h => by cases h)⟩
    ⟨rfl, (fun x h => by cases h; exact fun e => by cases e), (fun t h => by cases h)⟩

/-- C70: a text without zero bytes equals another value exactly when it is the text shown for that value: the word for
True, False, Nil, an object or a block in the language. -/
theorem C70_words (g : Lang) (t : Text) (ht : (0 : UInt8) ∉ t) (k : Nat) :
    equals g (.text t) (.bool true) = .ok (decide (t = g.wTrue)) ∧
    equals g (.text t) (.bool false) = .ok (decide (t = g.wFalse)) ∧
    equals g (.text t) .nil = .ok (decide (t = g.wNil)) ∧
    equals g (.text t) (.object k) = .ok (decide (t = g.wObject)) ∧
    equals g (.text t) (.code k) = .ok (decide (t = g.wCode)) := by
  have h := fun s => (Verif.Props.Text.C26_equality_partial t s ht).1
  exact ⟨h _, h _, h _, h _, h _⟩

example : (0 : UInt8) ∉ ([84, 114, 117, 101] : Text) := by decide

/-- C70 fails for values of different kinds: a number equals every text that is read as the number, but such a text equals the
number only if it is written exactly like it; and `Nil` equals only `Nil`, while `False` and zero equal `Nil`. -/
theorem C70_equality_violated (g : Lang) (x : Dbl) (hx : Proper x) (s t : Text) (hs : g.print x = .ok s) (hne : t.length ≠ s.length)
    (ht : g.atof (numberFromText g.sp t) = x) :
    equals g (.num x) (.text t) = .ok true ∧ equals g (.text t) (.num x) = .ok false ∧
    equals g (.bool false) .nil = .ok true ∧ equals g .nil (.bool false) = .ok false := by
  refine ⟨?_, ?_, rfl, rfl⟩
  · have h1 : ∀ v w, castNum g v = x → numberEq g w v = w.eq x := by intro v w h; rw [numberEq, h]
    show Out.ok (numberEq g x (.text t)) = _
    rw [h1 (.text t) x ht]
    have := (C70_equality_partial g 2).refl (.num x) ⟨rfl, (fun y h => by cases h; exact hx), (fun t h => by cases h)⟩
    exact this
  · rw [equals, castText, hs, ok_bind', Txt.eq, if_pos (fun h => hne h.symm)]

/-- A language in which `1` is written "1" and "1.0" is read as 1. -/
example : ∃ g : Lang, equals g (.num (.ofInt 1)) (.text [49, 46, 48]) = .ok true ∧
    equals g (.text [49, 46, 48]) (.num (.ofInt 1)) = .ok false :=
  let g : Lang := ⟨fun _ => .ofInt 1, fun _ => .ok [49], ⟨[44], [46]⟩, [], [], [], [], []⟩
  have h := C70_equality_violated g (.ofInt 1) (fun e => by cases e) [49] [49, 46, 48] rfl (by decide) rfl
  ⟨g, h.1, h.2.1⟩

end Verif.Props.Value
