import Verif.Model.Foreign
import Verif.Spec.Foreign
import Verif.Lemmas.Float

/-!
# Functions of other libraries (C118)
-/

namespace Verif.Props.Foreign
open Verif Verif.Model Verif.Model.Float Verif.Model.Foreign Verif.Spec.Foreign

theorem bind_ok {α β : Type} (a : α) (f : α → Out β) : (Out.ok a).bind f = f a := rfl

/-! ## Bytes -/

theorem le_length : ∀ n v, (le n v).length = n
  | 0, _ => rfl
  | n + 1, v => by rw [le, List.length_cons, le_length n]

theorem take_le : ∀ (n m v : Nat), n ≤ m → (le m v).take n = le n v
  | 0, _, _, _ => by rw [List.take_zero, le]
  | n + 1, 0, _, h => absurd h (by omega)
  | n + 1, m + 1, v, h => by rw [le, le, List.take_succ_cons, take_le n m _ (by omega)]

theorem unle_le : ∀ n v, unle (le n v) = v % 256 ^ n
  | 0, v => by rw [le, unle, Nat.pow_zero, Nat.mod_one]
  | n + 1, v => by
    rw [le, unle, unle_le n]
    have h : (UInt8.ofNat (v % 256)).toNat = v % 256 := by
      rw [UInt8.toNat_ofNat']
      omega
    rw [h, Nat.pow_succ, Nat.mul_comm (256 ^ n), Nat.mod_mul]

theorem pow_bytes (n : Nat) : 256 ^ n = 2 ^ (8 * n) := by
  rw [Nat.pow_mul]

/-- What is written is read again. -/
theorem read_write (s : Bool) (n m : Nat) (z : Int) (hn : 0 < n) (hm : n ≤ m) (hz : InRange s (8 * n) z) :
    readInt s n (le m (z % 2 ^ (8 * m)).toNat) = .ok z := by
  unfold readInt
  rw [if_neg (by rw [le_length]; omega), take_le n m _ hm]
  dsimp only
  rw [unle_le, pow_bytes]
  have hdv : ((2 ^ (8 * n) : Nat) : Int) ∣ ((2 ^ (8 * m) : Nat) : Int) :=
    Int.natCast_dvd_natCast.2 (Nat.pow_dvd_pow 2 (by omega))
  have hB : 2 ^ (8 * n) = 2 * 2 ^ (8 * n - 1) := by
    rw [← Nat.pow_succ']
    congr 1
    omega
  have hH : 0 < 2 ^ (8 * n - 1) := Nat.pow_pos (by decide)
  have hM : 0 < 2 ^ (8 * m) := Nat.pow_pos (by decide)
  have e1 : ∀ j : Nat, (2 : Int) ^ j = ((2 ^ j : Nat) : Int) := fun j => by simp
  unfold InRange at hz
  rw [e1, e1] at *
  generalize hb : 2 ^ (8 * n) = B at *
  generalize 2 ^ (8 * n - 1) = H at *
  generalize 2 ^ (8 * m) = M at *
  have h0 : 0 ≤ z % (M : Int) := Int.emod_nonneg _ (by omega)
  have hv : (((z % (M : Int)).toNat % B : Nat) : Int) = z % (B : Int) := by
    rw [Int.natCast_emod, Int.toNat_of_nonneg h0, Int.emod_emod_of_dvd _ hdv]
  generalize (z % (M : Int)).toNat % B = v at *
  have hmod : z % (B : Int) = z ∨ (z < 0 ∧ -(B : Int) ≤ z ∧ z % (B : Int) = z + B) ∨ ¬ (-(B : Int) ≤ z ∧ z < B) := by
    by_cases h1 : -(B : Int) ≤ z ∧ z < B
    · by_cases h2 : 0 ≤ z
      · exact Or.inl (Int.emod_eq_of_lt h2 h1.2)
      · refine Or.inr (Or.inl ⟨by omega, h1.1, ?_⟩)
        rw [← Int.add_emod_right]
        exact Int.emod_eq_of_lt (by omega) (by omega)
    · exact Or.inr (Or.inr h1)
  congr 1
  cases s
  · rw [if_neg (by decide)] at hz
    rw [if_neg (by simp)]
    omega
  · rw [if_pos rfl] at hz
    by_cases hv2 : H ≤ v
    · rw [if_pos ⟨rfl, hv2⟩]
      omega
    · rw [if_neg (fun h => hv2 h.2)]
      omega

theorem fits_of {s : Bool} {n : Nat} {z : Int} (h : InRange s (8 * n) z) : fits s n z = true := by
  unfold InRange at h
  unfold fits
  cases s
  · rw [if_neg (by decide)] at h ⊢
    simp [h.1, h.2]
  · rw [if_pos rfl] at h ⊢
    simp [h.1, h.2]

theorem trunc_of {neg : Bool} {m k : Nat} {z : Int} (h : WholePart neg m k z) : trunc (.fin neg m k) = some z := by
  obtain ⟨h1, h2, h3, h4⟩ := h
  have hd : m / 2 ^ k = z.natAbs := Nat.div_eq_of_lt_le h1 h2
  rw [trunc, hd]
  congr 1
  cases neg
  · rw [if_neg (by decide)]
    have : ¬ z < 0 := fun h => absurd (h3 h) (by decide)
    omega
  · rw [if_pos rfl]
    have : ¬ 0 < z := fun h => absurd (h4 h) (by decide)
    omega

/-! ## Types -/

/-- **C118**: the names of whole number types stand for the types of C with these names. -/
theorem C118_types (t : Text) (s : Bool) (n : Nat) : mapType t = some (.int s n) ↔ (t, s, 8 * n) ∈ cTypes := by
  constructor
  · intro h
    unfold mapType at h
    by_cases h0 : t = [118, 111, 105, 100]
    · rw [if_pos h0] at h; subst h0; cases h
    rw [if_neg h0] at h; clear h0
    by_cases h0 : t = [117, 105, 110, 116]
    · rw [if_pos h0] at h; subst h0; cases h; decide
    rw [if_neg h0] at h; clear h0
    by_cases h0 : t = [105, 110, 116]
    · rw [if_pos h0] at h; subst h0; cases h; decide
    rw [if_neg h0] at h; clear h0
    by_cases h0 : t = [117, 105, 110, 116, 56, 95, 116]
    · rw [if_pos h0] at h; subst h0; cases h; decide
    rw [if_neg h0] at h; clear h0
    by_cases h0 : t = [105, 110, 116, 56, 95, 116]
    · rw [if_pos h0] at h; subst h0; cases h; decide
    rw [if_neg h0] at h; clear h0
    by_cases h0 : t = [117, 105, 110, 116, 49, 54, 95, 116]
    · rw [if_pos h0] at h; subst h0; cases h; decide
    rw [if_neg h0] at h; clear h0
    by_cases h0 : t = [105, 110, 116, 49, 54, 95, 116]
    · rw [if_pos h0] at h; subst h0; cases h; decide
    rw [if_neg h0] at h; clear h0
    by_cases h0 : t = [117, 105, 110, 116, 51, 50, 95, 116]
    · rw [if_pos h0] at h; subst h0; cases h; decide
    rw [if_neg h0] at h; clear h0
    by_cases h0 : t = [105, 110, 116, 51, 50, 95, 116]
    · rw [if_pos h0] at h; subst h0; cases h; decide
    rw [if_neg h0] at h; clear h0
    by_cases h0 : t = [117, 105, 110, 116, 54, 52, 95, 116]
    · rw [if_pos h0] at h; subst h0; cases h; decide
    rw [if_neg h0] at h; clear h0
    by_cases h0 : t = [105, 110, 116, 54, 52, 95, 116]
    · rw [if_pos h0] at h; subst h0; cases h; decide
    rw [if_neg h0] at h; clear h0
    by_cases h0 : t = [102, 108, 111, 97, 116]
    · rw [if_pos h0] at h; subst h0; cases h
    rw [if_neg h0] at h; clear h0
    by_cases h0 : t = [100, 111, 117, 98, 108, 101]
    · rw [if_pos h0] at h; subst h0; cases h
    rw [if_neg h0] at h; clear h0
    by_cases h0 : t = [117, 115, 104, 111, 114, 116]
    · rw [if_pos h0] at h; subst h0; cases h; decide
    rw [if_neg h0] at h; clear h0
    by_cases h0 : t = [115, 104, 111, 114, 116]
    · rw [if_pos h0] at h; subst h0; cases h; decide
    rw [if_neg h0] at h; clear h0
    by_cases h0 : t = [117, 99, 104, 97, 114]
    · rw [if_pos h0] at h; subst h0; cases h; decide
    rw [if_neg h0] at h; clear h0
    by_cases h0 : t = [99, 104, 97, 114]
    · rw [if_pos h0] at h; subst h0; cases h; decide
    rw [if_neg h0] at h; clear h0
    by_cases h0 : t = [112, 111, 105, 110, 116, 101, 114]
    · rw [if_pos h0] at h; subst h0; cases h
    rw [if_neg h0] at h; clear h0
    by_cases h0 : t = [117, 108, 111, 110, 103]
    · rw [if_pos h0] at h; subst h0; cases h; decide
    rw [if_neg h0] at h; clear h0
    by_cases h0 : t = [108, 111, 110, 103]
    · rw [if_pos h0] at h; subst h0; cases h; decide
    rw [if_neg h0] at h; clear h0
    cases h
  · intro h
    simp only [cTypes, List.mem_cons, Prod.mk.injEq, List.not_mem_nil, or_false] at h
    rcases h with ⟨rfl, rfl, h⟩ | ⟨rfl, rfl, h⟩ | ⟨rfl, rfl, h⟩ | ⟨rfl, rfl, h⟩ | ⟨rfl, rfl, h⟩ | ⟨rfl, rfl, h⟩ | ⟨rfl, rfl, h⟩ | ⟨rfl, rfl, h⟩ | ⟨rfl, rfl, h⟩ | ⟨rfl, rfl, h⟩ | ⟨rfl, rfl, h⟩ | ⟨rfl, rfl, h⟩ | ⟨rfl, rfl, h⟩ | ⟨rfl, rfl, h⟩ | ⟨rfl, rfl, h⟩ | ⟨rfl, rfl, h⟩
    all_goals
      first
        | (obtain rfl : n = 1 := (by omega)
           rfl)
        | (obtain rfl : n = 2 := (by omega)
           rfl)
        | (obtain rfl : n = 4 := (by omega)
           rfl)
        | (obtain rfl : n = 8 := (by omega)
           rfl)

/-- Types of whole numbers have at most eight bytes. -/
def Good : Ty → Prop
  | .int _ n => 0 < n ∧ n ≤ 8
  | _ => True

theorem mapType_good {t : Text} {ty : Ty} (h : mapType t = some ty) : Good ty := by
  cases ty with
  | int s n =>
    have h1 := (C118_types t s n).1 h
    have h2 : ∀ p ∈ cTypes, 8 ≤ p.2.2 ∧ p.2.2 ≤ 64 := by decide
    have h3 := h2 _ h1
    dsimp only at h3
    exact ⟨by omega, by omega⟩
  | _ => trivial

theorem mapTypes_good : ∀ {ts : List Text} {tys : List Ty}, mapTypes ts = some tys → (∀ ty ∈ tys, Good ty) ∧ tys.length = ts.length
  | [], tys, h => by
    injection h with h
    subst h
    exact ⟨by simp, rfl⟩
  | t :: ts, tys, h => by
    rw [mapTypes] at h
    cases h1 : mapType t with
    | none => rw [h1] at h; cases h
    | some ty =>
      cases h2 : mapTypes ts with
      | none => rw [h1, h2] at h; cases h
      | some r =>
        rw [h1, h2] at h
        injection h with h
        subst h
        obtain ⟨g1, g2⟩ := mapTypes_good h2
        refine ⟨fun x hx => ?_, by rw [List.length_cons, List.length_cons, g2]⟩
        rcases List.mem_cons.1 hx with rfl | hx
        · exact mapType_good h1
        · exact g1 x hx

theorem link_good {names : List Text} {rname : Text} {tys : List Ty} {r : Ty} (h : link names rname = some (tys, r)) :
    (∀ ty ∈ tys, Good ty) ∧ Good r ∧ tys.length ≤ 20 := by
  unfold link at h
  by_cases hl : names.length > 20
  · rw [if_pos hl] at h
    cases h
  · rw [if_neg hl] at h
    cases h1 : mapTypes names with
    | none => rw [h1] at h; cases h
    | some a =>
      cases h2 : mapType rname with
      | none => rw [h1, h2] at h; cases h
      | some b =>
        rw [h1, h2] at h
        injection h with h
        injection h with ha hb
        subst ha hb
        obtain ⟨g1, g2⟩ := mapTypes_good h1
        exact ⟨g1, mapType_good h2, by omega⟩

/-! ## Calls -/

/-- The number `x` for a parameter of type `ty` is the value `v` for the function. -/
inductive Passes : Ty → F → Val → Prop
  | int {s : Bool} {n : Nat} {neg : Bool} {m k : Nat} {z : Int} (h : WholePart neg m k z) (hz : InRange s (8 * n) z) :
    Passes (.int s n) (.fin neg m k) (.int z)
  | dbl (x : F) : Passes .double x (.dbl x)

/-- One number for each parameter. -/
inductive PassesAll : List Ty → List F → List Val → Prop
  | nil : PassesAll [] [] []
  | cons {ty : Ty} {x : F} {v : Val} {tys : List Ty} {xs : List F} {vs : List Val} (h : Passes ty x v) (hs : PassesAll tys xs vs) :
    PassesAll (ty :: tys) (x :: xs) (v :: vs)

theorem PassesAll.len {tys : List Ty} {xs : List F} {vs : List Val} (h : PassesAll tys xs vs) : xs.length = tys.length := by
  induction h with
  | nil => rfl
  | cons _ _ ih => rw [List.length_cons, List.length_cons, ih]

theorem convert_receive {ty : Ty} {x : F} {v : Val} (h : Passes ty x v) (hg : Good ty) :
    ∃ s, convert ty x = .ok s ∧ receive ty s = .ok v := by
  cases h with
  | @int s n neg m k z h hz =>
    refine ⟨.bytes (le n (z % 2 ^ (8 * n)).toNat), ?_, ?_⟩
    · unfold convert
      dsimp only
      rw [trunc_of h]
      dsimp only
      rw [if_pos (fits_of hz)]
    · unfold receive
      dsimp only
      rw [read_write s n n z hg.1 (Nat.le_refl _) hz, bind_ok]
  | dbl => exact ⟨.dbl x, rfl, rfl⟩

theorem fill_spec : ∀ {tys : List Ty} {xs : List F} {vs : List Val} (pre post : List Ty) (extra : List F),
    PassesAll tys xs vs → (∀ ty ∈ tys, Good ty) →
    ∃ ss, receiveAll tys ss = .ok vs ∧ ss.length = tys.length ∧ fill (pre ++ (tys ++ post)) pre.length (xs ++ extra) =
      (fill (pre ++ (tys ++ post)) (pre.length + tys.length) extra).bind fun e => .ok (ss ++ e)
  | _, _, _, pre, post, extra, .nil, _ => by
    refine ⟨[], rfl, rfl, ?_⟩
    rw [List.nil_append, List.nil_append, List.length_nil, Nat.add_zero]
    cases fill (pre ++ post) pre.length extra <;> rfl
  | _, _, _, pre, post, extra, .cons (ty := ty) (x := x) (v := v) (tys := tys) (xs := xs) (vs := vs) h hs, hg => by
    obtain ⟨s, c1, c2⟩ := convert_receive h (hg ty List.mem_cons_self)
    obtain ⟨ss, f1, f2, f3⟩ := fill_spec (pre ++ [ty]) post extra hs (fun t ht => hg t (List.mem_cons_of_mem _ ht))
    refine ⟨s :: ss, ?_, by rw [List.length_cons, List.length_cons, f2], ?_⟩
    · rw [receiveAll, c2, bind_ok, f1, bind_ok]
    · have e : pre ++ [ty] ++ (tys ++ post) = pre ++ (ty :: tys ++ post) := by
        rw [List.append_assoc]
        rfl
      rw [e, List.length_append, List.length_singleton] at f3
      show fill (pre ++ (ty :: tys ++ post)) pre.length (x :: (xs ++ extra)) = _
      rw [fill, if_neg (by rw [List.length_append]; omega)]
      have hget : (pre ++ (ty :: tys ++ post))[pre.length]? = some ty := by
        rw [List.getElem?_append_right (Nat.le_refl _), Nat.sub_self]
        rfl
      rw [hget]
      dsimp only
      rw [c1, bind_ok, f3, List.length_cons]
      have e2 : pre.length + (tys.length + 1) = pre.length + 1 + tys.length := by omega
      rw [e2]
      cases fill (pre ++ (ty :: tys ++ post)) (pre.length + 1 + tys.length) extra <;> rfl

theorem fill_nil (tys : List Ty) (i : Nat) : fill tys i [] = .ok [] := by rw [fill]

theorem fill_all {tys : List Ty} {xs : List F} {vs : List Val} (h : PassesAll tys xs vs) (hg : ∀ ty ∈ tys, Good ty) :
    ∃ ss, fill tys 0 xs = .ok ss ∧ receiveAll tys ss = .ok vs := by
  obtain ⟨ss, f1, _, f3⟩ := fill_spec [] [] [] h hg
  refine ⟨ss, ?_, f1⟩
  rw [List.nil_append, List.append_nil, List.append_nil, fill_nil, bind_ok, List.append_nil] at f3
  exact f3

theorem fill_direct (tys : List Ty) : ∀ (xs : List F) (i : Nat), i ≤ tys.length → fillDirect tys i xs = fill tys i xs
  | [], _, _ => by rw [fillDirect, fill]
  | x :: xs, i, h => by
    rw [fillDirect, fill, if_neg (by omega)]
    cases hi : tys[i]? with
    | none => rfl
    | some ty =>
      dsimp only
      have := (List.getElem?_eq_some_iff.1 hi).1
      rw [fill_direct tys xs (i + 1) (by omega)]

/-- The single arguments of a message are passed like those of a sequence. -/
theorem direct_eq (tys : List Ty) (r : Ty) (g : List Val → Val) (xs : List F) (h : xs.length ≤ 20) :
    callDirect tys r g xs = callList tys r g xs := by
  unfold callDirect callList
  rw [if_neg (by omega), fill_direct tys xs 0 (by omega)]

theorem block_size (r : Ty) : ¬ blockSize r < 8 := by
  cases r with
  | int s n =>
    show ¬ (if n < 8 then 8 else n) < 8
    by_cases h : n < 8
    · rw [if_pos h]
      decide
    · rw [if_neg h]
      exact h
  | _ => decide

/-- **C118 (partial)**: a function that was linked with named types and is called with one number for each parameter, each of
the type of its parameter, gets exactly these numbers (for whole number types without their fractions), and the whole number it
answers is the answer of the message. -/
theorem C118_partial (names : List Text) (rname : Text) (tys : List Ty) (s : Bool) (n : Nat) (g : List Val → Val) (xs : List F)
    (vs : List Val) (z : Int) (hl : link names rname = some (tys, .int s n)) (hp : PassesAll tys xs vs) (hg : g vs = .int z)
    (hz : InRange s (8 * n) z) (hb : z.natAbs ≤ 2 ^ 53) :
    ∃ y, callList tys (.int s n) g xs = .ok (.num y) ∧ callDirect tys (.int s n) g xs = .ok (.num y) ∧ Holds y z := by
  obtain ⟨g1, g2, g3⟩ := link_good hl
  obtain ⟨ss, f1, f2⟩ := fill_all hp g1
  have hlen := hp.len
  have h1 : callList tys (.int s n) g xs = .ok (.num (rnd (decide (z < 0)) z.natAbs 1)) := by
    unfold callList ffiCall
    rw [if_neg (by omega), f1, bind_ok, f2, bind_ok, if_neg (block_size _), hg]
    dsimp only
    rw [bind_ok]
    unfold convertBack
    dsimp only
    have := read_write s n 8 z g2.1 g2.2 hz
    rw [show (2 : Int) ^ (8 * 8) = 2 ^ 64 from rfl] at this
    rw [this, bind_ok]
  refine ⟨_, h1, by rw [direct_eq _ _ _ _ (by omega), h1], ?_⟩
  exact rnd_holds (by decide) (by omega) hb (fun _ => rfl)

/-- **C118**: numbers that a function answers as `double` come back as they are. -/
theorem C118_double (names : List Text) (rname : Text) (tys : List Ty) (g : List Val → Val) (xs : List F)
    (vs : List Val) (y : F) (hl : link names rname = some (tys, .double)) (hp : PassesAll tys xs vs) (hg : g vs = .dbl y) :
    callList tys .double g xs = .ok (.num y) ∧ callDirect tys .double g xs = .ok (.num y) := by
  obtain ⟨g1, _, g3⟩ := link_good hl
  obtain ⟨ss, f1, f2⟩ := fill_all hp g1
  have hlen := hp.len
  have h1 : callList tys .double g xs = .ok (.num y) := by
    unfold callList ffiCall
    rw [if_neg (by omega), f1, bind_ok, f2, bind_ok, if_neg (block_size _), hg]
    rfl
  exact ⟨h1, by rw [direct_eq _ _ _ _ (by omega), h1]⟩

/-- **C118**: a function without an answer answers Nil. -/
theorem C118_void (names : List Text) (rname : Text) (tys : List Ty) (g : List Val → Val) (xs : List F)
    (vs : List Val) (hl : link names rname = some (tys, .void)) (hp : PassesAll tys xs vs) :
    callList tys .void g xs = .ok .nil ∧ callDirect tys .void g xs = .ok .nil := by
  obtain ⟨g1, _, g3⟩ := link_good hl
  obtain ⟨ss, f1, f2⟩ := fill_all hp g1
  have hlen := hp.len
  have h1 : callList tys .void g xs = .ok .nil := by
    unfold callList ffiCall
    rw [if_neg (by omega), f1, bind_ok, f2, bind_ok, if_neg (block_size _)]
    rfl
  exact ⟨h1, by rw [direct_eq _ _ _ _ (by omega), h1]⟩

/-- **C118**: more than twenty parameters are refused, when a function is linked and when it is called. -/
theorem C118_twenty (names : List Text) (rname : Text) (tys : List Ty) (r : Ty) (g : List Val → Val) (xs : List F) :
    (20 < names.length → link names rname = none) ∧ (20 < xs.length → callList tys r g xs = .ok .error) := by
  refine ⟨fun h => ?_, fun h => ?_⟩
  · unfold link
    rw [if_pos h]
  · unfold callList
    rw [if_pos h]

/-- The full statement: whatever numbers a linked function is called with, nothing undefined happens. -/
def C118_full : Prop := ∀ (names : List Text) (rname : Text) (tys : List Ty) (r : Ty) (z : Int) (xs : List F),
  link names rname = some (tys, r) → callList tys r (fun _ => .int z) xs ≠ .ub

/-- **C118, violated**: with more numbers than parameters, a null pointer is followed. -/
theorem C118_violated_more (names : List Text) (rname : Text) (tys : List Ty) (r : Ty) (g : List Val → Val) (xs extra : List F)
    (vs : List Val) (x : F) (hl : link names rname = some (tys, r)) (hp : PassesAll tys xs vs)
    (h20 : (xs ++ x :: extra).length ≤ 20) : callList tys r g (xs ++ x :: extra) = .ub := by
  obtain ⟨g1, _, g3⟩ := link_good hl
  obtain ⟨ss, _, _, f3⟩ := fill_spec [] [] (x :: extra) hp g1
  rw [List.nil_append, List.append_nil, List.length_nil, Nat.zero_add] at f3
  unfold callList
  rw [if_neg (by omega), f3, fill, if_neg (by omega), List.getElem?_eq_none (Nat.le_refl _)]
  rfl

theorem receiveAll_short : ∀ (tys more : List Ty) (ty : Ty) (ss : List Slot) (vs : List Val), receiveAll tys ss = .ok vs →
    ss.length = tys.length → receiveAll (tys ++ ty :: more) ss = .ub
  | [], more, ty, [], _, _, _ => rfl
  | [], _, _, _ :: _, _, _, h => by simp at h
  | _ :: _, _, _, [], _, _, h => by simp at h
  | t :: tys, more, ty, s :: ss, vs, h, hl => by
    rw [receiveAll] at h
    rw [List.cons_append, receiveAll]
    cases hr : receive t s with
    | ok v =>
      rw [hr, bind_ok] at h
      rw [bind_ok]
      cases h2 : receiveAll tys ss with
      | ok ws => rw [receiveAll_short tys more ty ss ws h2 (by simpa using hl)]; rfl
      | _ => rw [h2] at h; cases h
    | _ => rw [hr] at h; cases h

/-- **C118, violated**: with fewer numbers than parameters, an uninitialised pointer is followed. -/
theorem C118_violated_fewer (names : List Text) (rname : Text) (tys more : List Ty) (ty r : Ty) (g : List Val → Val) (xs : List F)
    (vs : List Val) (hl : link names rname = some (tys ++ ty :: more, r)) (hp : PassesAll tys xs vs) :
    callList (tys ++ ty :: more) r g xs = .ub := by
  obtain ⟨g1, _, g3⟩ := link_good hl
  obtain ⟨ss, f1, f2, f3⟩ := fill_spec [] (ty :: more) [] hp (fun t ht => g1 t (List.mem_append_left _ ht))
  rw [List.nil_append, List.append_nil, fill_nil, bind_ok, List.append_nil, List.length_nil] at f3
  have hlen := hp.len
  rw [List.length_append] at g3
  unfold callList ffiCall
  rw [if_neg (by omega), f3, bind_ok, receiveAll_short tys more ty ss vs f1 f2]
  rfl

/-- `int f(int, uint8_t)`: the types of the witnesses. -/
theorem sample_link : link [[105, 110, 116], [117, 105, 110, 116, 56, 95, 116]] [105, 110, 116] =
    some ([.int true 4, .int false 1], .int true 4) := by decide +kernel

theorem sample_passes : PassesAll [.int true 4, .int false 1] [.fin true 7 1, .fin false 200 0] [.int (-3), .int 200] :=
  .cons (.int (by unfold WholePart; decide) (by unfold InRange; decide)) (.cons (.int (by unfold WholePart; decide) (by unfold InRange; decide)) .nil)

theorem C118_full_false : ¬ C118_full := by
  intro h
  exact h _ _ _ _ 0 _ sample_link (C118_violated_more _ _ _ _ _ _ [] _ (.fin false 1 0) sample_link sample_passes (by decide))

/-- **C118, violated**: whole numbers above 2^53 do not come back as they are (`int64_t`). -/
theorem C118_violated_large : callDirect [] (.int true 8) (fun _ => .int (2 ^ 53 + 1)) [] = .ok (.num (.fin false (2 ^ 53) 0)) := by
  decide +kernel

/-- **C118, violated**: numbers that are not of the type of the parameter are undefined behaviour (256 for `uint8_t`). -/
theorem C118_violated_range (r : Ty) (g : List Val → Val) : callDirect [.int false 1] r g [.fin false 256 0] = .ub := by
  have h : fillDirect [.int false 1] 0 [.fin false 256 0] = .ub := by decide +kernel
  unfold callDirect
  rw [h]
  rfl

/-- The hypotheses of `C118_partial` are met: -3.5 and 200 for `int` and `uint8_t`, the sum -3 + 200 is answered. -/
example : callList [.int true 4, .int false 1] (.int true 4)
    (fun vs => match vs with
      | [.int a, .int b] => .int (a + b)
      | _ => .other) [.fin true 7 1, .fin false 200 0] = .ok (.num (.fin false (197 * 2 ^ 45) 45)) := by
  decide +kernel

end Verif.Props.Foreign
