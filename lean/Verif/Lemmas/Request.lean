import Verif.Model.Request
import Verif.Spec.Request

/-!
# Lemmas about web requests
-/

namespace Verif.Lemmas.Req
open Verif Verif.Model Verif.Model.Req
open Verif.Spec.Req (digit pair plain pieces field fields valuesOf Written Item query)

theorem bind_ok {α β : Type} (a : α) (f : α → Out β) : (Out.ok a).bind f = f a := rfl

/-! ## C strings -/

theorem cstr_id {t : Text} (h : (0 : UInt8) ∉ t) : cstr t = t := by
  induction t with
  | nil => rfl
  | cons c r ih =>
    have hc : c ≠ 0 := fun e => h (by simp [e])
    unfold cstr at *
    rw [List.takeWhile_cons, if_pos (by simpa using hc), ih (fun hr => h (by simp [hr]))]

theorem cstr_no (t : Text) : (0 : UInt8) ∉ cstr t := by
  intro h
  have := List.all_takeWhile (p := fun c : UInt8 => c != 0) (l := t)
  rw [List.all_eq_true] at this
  simpa using this 0 h

theorem cstr_append_zero {a : Text} (b : Text) (h : (0 : UInt8) ∉ a) : cstr (a ++ 0 :: b) = a := by
  unfold cstr
  rw [List.takeWhile_append_of_pos (by
    intro c hc
    simp only [bne_iff_ne, ne_eq]
    rintro rfl
    exact h hc)]
  simp

theorem cstr_zero (a b : Text) : cstr (a ++ 0 :: b) = cstr a := by
  induction a with
  | nil => rfl
  | cons c r ih =>
    unfold cstr at *
    rw [List.cons_append, List.takeWhile_cons, List.takeWhile_cons, ih]

theorem cstr_split (t : Text) : ∃ s, t = cstr t ++ s ∧ (s = [] ∨ ∃ r, s = 0 :: r) := by
  refine ⟨t.dropWhile (· != 0), (List.takeWhile_append_dropWhile).symm, ?_⟩
  cases h : t.dropWhile (· != 0) with
  | nil => exact .inl rfl
  | cons c r =>
    have := List.head_dropWhile_not (fun c : UInt8 => c != 0) (w := by rw [h]; simp) (l := t)
    simp only [h, List.head_cons] at this
    simp at this
    subst this
    exact .inr ⟨r, rfl⟩

/-! ## Variable lists -/

theorem lookupAll_add (v : Vars) (n x m : Text) :
    lookupAll (addVar v n x) m = if n = m then some ((lookupAll v n).getD [] ++ [x]) else lookupAll v m := by
  induction v with
  | nil =>
    simp only [addVar, lookupAll, Option.getD_none, List.nil_append]
  | cons e v ih =>
    obtain ⟨k, xs⟩ := e
    by_cases hk : k = n
    · subst hk
      by_cases hm : k = m
      · simp [addVar, lookupAll, hm]
      · simp [addVar, lookupAll, hm]
    · by_cases hm : n = m
      · subst hm
        simp only [addVar, lookupAll, if_neg hk, ih, if_true]
      · by_cases hk' : k = m
        · subst hk'
          simp [addVar, lookupAll, hk, hm]
        · simp only [addVar, lookupAll, if_neg hk, if_neg hk', ih, if_neg hm]

theorem lookup_add (v : Vars) (n x m : Text) (hv : ∀ e ∈ v, e.2 ≠ []) :
    lookup (addVar v n x) m = if n = m then some ((lookup v n).getD x) else lookup v m := by
  induction v with
  | nil => simp [addVar, lookup]
  | cons e v ih =>
    obtain ⟨k, xs⟩ := e
    have hxs : xs ≠ [] := hv (k, xs) (by simp)
    have ih := ih (fun e he => hv e (by simp [he]))
    by_cases hk : k = n
    · subst hk
      by_cases hm : k = m
      · subst hm
        cases xs with
        | nil => exact absurd rfl hxs
        | cons y ys => simp [addVar, lookup]
      · simp [addVar, lookup, hm]
    · by_cases hm : n = m
      · subst hm
        simp only [addVar, lookup, if_neg hk, ih, if_true]
      · by_cases hk' : k = m
        · subst hk'
          simp [addVar, lookup, hk, hm]
        · simp only [addVar, lookup, if_neg hk, if_neg hk', ih, if_neg hm]

theorem addVar_full {v : Vars} (hv : ∀ e ∈ v, e.2 ≠ []) (n x : Text) : ∀ e ∈ addVar v n x, e.2 ≠ [] := by
  induction v with
  | nil => simp [addVar]
  | cons e v ih =>
    obtain ⟨k, xs⟩ := e
    have ih := ih (fun e he => hv e (by simp [he]))
    by_cases hk : k = n
    · simp only [addVar, if_pos hk]
      intro e he
      rcases List.mem_cons.1 he with rfl | he
      · simp
      · exact hv e (by simp [he])
    · simp only [addVar, if_neg hk]
      intro e he
      rcases List.mem_cons.1 he with rfl | he
      · exact hv (k, xs) (by simp)
      · exact ih e he

/-- Adding fields one after the other. -/
def addAll (v : Vars) (fs : List (Text × Text)) : Vars := fs.foldl (fun v f => addVar v f.1 f.2) v

theorem addAll_append (v : Vars) (a b : List (Text × Text)) : addAll v (a ++ b) = addAll (addAll v a) b := by
  simp [addAll, List.foldl_append]

/-- A list of variables says what a list of fields says. -/
def Says (v : Vars) (fs : List (Text × Text)) : Prop :=
  (∀ e ∈ v, e.2 ≠ []) ∧
    ∀ n, lookupAll v n = (if valuesOf fs n = [] then none else some (valuesOf fs n)) ∧ lookup v n = (valuesOf fs n).head?

theorem valuesOf_snoc (fs : List (Text × Text)) (f : Text × Text) (n : Text) :
    valuesOf (fs ++ [f]) n = valuesOf fs n ++ (if f.1 = n then [f.2] else []) := by
  unfold valuesOf
  rw [List.filter_append, List.map_append]
  by_cases h : f.1 = n
  · simp [h]
  · simp [h]

theorem says_nil : Says [] [] := ⟨by simp, fun n => ⟨rfl, rfl⟩⟩

theorem says_add {v : Vars} {fs : List (Text × Text)} (h : Says v fs) (f : Text × Text) :
    Says (addVar v f.1 f.2) (fs ++ [f]) := by
  refine ⟨addVar_full h.1 _ _, fun n => ?_⟩
  rw [lookupAll_add, lookup_add _ _ _ _ h.1, valuesOf_snoc]
  by_cases hn : f.1 = n
  · subst hn
    simp only [if_true]
    refine ⟨?_, ?_⟩
    · rw [if_neg (by simp), (h.2 _).1]
      by_cases he : valuesOf fs f.1 = []
      · simp [he]
      · simp [he]
    · rw [(h.2 _).2]
      cases valuesOf fs f.1 with
      | nil => rfl
      | cons y ys => simp
  · simp only [if_neg hn, List.append_nil]
    exact h.2 n

theorem says_addAll (fs : List (Text × Text)) : ∀ {v : Vars} {gs : List (Text × Text)}, Says v gs → Says (addAll v fs) (gs ++ fs) := by
  induction fs with
  | nil => intro v gs h; simpa [addAll] using h
  | cons f fs ih =>
    intro v gs h
    have := ih (says_add h f)
    simpa [addAll] using this

theorem cstring_id {t : Text} (h : (0 : UInt8) ∉ t) : cstring t = t := by
  unfold cstring
  rw [List.filter_eq_self]
  intro c hc
  simp only [bne_iff_ne, ne_eq]
  rintro rfl
  exact h hc

theorem says_string {v : Vars} {fs : List (Text × Text)} (h : Says v fs) {n : Text} (hn : (0 : UInt8) ∉ n) :
    requestString v n = (valuesOf fs n).head? := by
  rw [requestString, cstring_id hn]
  exact (h.2 n).2

theorem says_array {v : Vars} {fs : List (Text × Text)} (h : Says v fs) {n : Text} (hn : (0 : UInt8) ∉ n) :
    requestArray v n = valuesOf fs n := by
  rw [requestArray, cstring_id hn, (h.2 n).1]
  by_cases he : valuesOf fs n = []
  · simp [he]
  · simp [he]

/-! ## Queries -/

theorem hex_eq (c : UInt8) : hex c = digit c := by
  unfold hex digit
  simp only [UInt8.le_iff_toNat_le]
  simp only [UInt8.reduceToNat]
  split
  · rfl
  split
  · congr 1; omega
  split
  · congr 1; omega
  · rfl

theorem escape_eq (a b : UInt8) (r : Text) : escape (a :: b :: r) = pair a b := by
  simp only [escape, pair, hex_eq]
  cases digit a <;> cases digit b <;> simp [Nat.mul_comm]

theorem digit_sep {c : UInt8} (h : c = 0 ∨ c = 38 ∨ c = 61) : digit c = none := by
  rcases h with rfl | rfl | rfl <;> decide

theorem escape_sep {p q : Text} (h : q = [] ∨ ∃ c r, q = c :: r ∧ (c = 0 ∨ c = 38 ∨ c = 61)) :
    escape (p ++ q) = escape p := by
  rcases h with rfl | ⟨c, r, rfl, hc⟩
  · simp
  · match p with
    | [] =>
      cases r with
      | nil => rfl
      | cons d r => rw [List.nil_append, escape_eq, pair, digit_sep hc]; rfl
    | [a] =>
      rw [List.cons_append, List.nil_append, escape_eq, pair, digit_sep hc]
      cases digit a <;> rfl
    | a :: b :: p => rfl

theorem plain_nil : plain [] = [] := by unfold plain; rfl

theorem plain_cons (c : UInt8) (r : Text) :
    plain (c :: r) =
      match (if c = 37 then escape r else none) with
      | some x => x :: plain (r.drop 2)
      | none => (if c = 43 then 32 else c) :: plain r := by
  by_cases hc : c = 37
  · subst hc
    match r with
    | [] => simp [plain, escape]
    | [a] => simp [plain, escape]
    | a :: b :: r =>
      rw [if_pos rfl, escape_eq]
      simp only [plain]
      cases h : pair a b <;> simp
  · rw [if_neg hc]
    match r with
    | [] => simp [plain]
    | [a] => simp [plain]
    | a :: b :: r =>
      show plain (c :: a :: b :: r) = (if c = 43 then 32 else c) :: plain (a :: b :: r)
      rw [plain]
      intro a' b' r' h
      exact absurd h hc

theorem plain_length : ∀ (n : Nat) (t : Text), t.length ≤ n → (plain t).length ≤ t.length := by
  intro n
  induction n with
  | zero => intro t h; cases t with
    | nil => simp [plain_nil]
    | cons c r => simp at h
  | succ n ih =>
    intro t h
    cases t with
    | nil => simp [plain_nil]
    | cons c r =>
      simp only [List.length_cons] at h
      rw [plain_cons]
      split
      · have := ih (r.drop 2) (by simp; omega)
        simp only [List.length_cons, List.length_drop] at *; omega
      · have := ih r (by omega)
        simp only [List.length_cons]; omega

theorem escape_long {r : Text} {x : UInt8} (h : escape r = some x) : ∃ a b s, r = a :: b :: s := by
  match r with
  | [] => simp [escape] at h
  | [a] => simp [escape] at h
  | a :: b :: s => exact ⟨a, b, s, rfl⟩

theorem put_ok {size : Nat} {buf : Text} {c : UInt8} (h : buf.length < size) : put size buf c = .ok (buf ++ [c]) := by
  rw [put, if_pos h]

/-- Reading a piece of a query without separators. -/
theorem decode_plain (size : Nat) (val : Option Nat) (v : Vars) (q : Text) :
    ∀ (n : Nat) (p buf : Text), p.length ≤ n → (∀ c ∈ p, c ≠ 0 ∧ c ≠ 38 ∧ (val = none → c ≠ 61)) →
      (q = [] ∨ ∃ c r, q = c :: r ∧ (c = 0 ∨ c = 38 ∨ c = 61)) → buf.length + p.length < size →
      decode size (p ++ q) 0 buf val v = decode size q 0 (buf ++ plain p) val v := by
  intro n
  induction n with
  | zero =>
    intro p buf hn _ _ _
    cases p with
    | nil => simp [plain_nil]
    | cons c r => simp at hn
  | succ n ih =>
    intro p buf hn hp hq hs
    cases p with
    | nil => simp [plain_nil]
    | cons c r =>
      obtain ⟨h0, h38, h61⟩ := hp c (by simp)
      simp only [List.length_cons] at hn hs
      have hr : ∀ c ∈ r, c ≠ 0 ∧ c ≠ 38 ∧ (val = none → c ≠ 61) := fun c hc => hp c (by simp [hc])
      have h61' : ¬ (c = 61 ∧ val = none) := fun h => h61 h.2 h.1
      rw [List.cons_append, decode, if_neg h61', if_neg h0, if_neg h38, plain_cons]
      by_cases h43 : c = 43
      · subst h43
        rw [if_pos rfl, put_ok (by omega), bind_ok, ih r _ (by omega) hr hq (by simp; omega)]
        simp
      · rw [if_neg h43, escape_sep hq]
        cases hx : (if c = 37 then escape r else none) with
        | none =>
          simp only [h43, if_false]
          rw [put_ok (by omega), bind_ok, ih r _ (by omega) hr hq (by simp; omega)]
          simp
        | some x =>
          have hr' : escape r = some x := by
            by_cases h37 : c = 37
            · simpa [h37] using hx
            · simp [h37] at hx
          obtain ⟨a, b, s, rfl⟩ := escape_long hr'
          simp only [List.length_cons] at hn hs
          simp only [List.drop_succ_cons, List.drop_zero]
          rw [put_ok (by omega), bind_ok]
          show decode size (s ++ q) 0 (buf ++ [x]) val v = _
          rw [ih s _ (by omega) (fun c hc => hr c (by simp [hc])) hq (by simp; omega)]
          simp

/-- `=` before a name. -/
theorem decode_equals (size : Nat) (v : Vars) (q : Text) : ∀ (k : Nat),
    decode size (List.replicate k 61 ++ q) 0 [] none v = decode size q 0 [] none v
  | 0 => rfl
  | k + 1 => by
    rw [List.replicate_succ, List.cons_append, decode, if_pos ⟨rfl, rfl⟩, if_neg (by simp)]
    exact decode_equals size v q k

theorem cstr_name (a b : Text) : cstr (a ++ 0 :: b) = cstr a := cstr_zero a b

/-- What a piece adds. -/
def one (p : Text) : List (Text × Text) :=
  match field p with
  | some f => [(cstr f.1, cstr f.2)]
  | none => []

theorem takeWhile_ne {x : UInt8} (p : Text) : ∀ c ∈ p.takeWhile (· != x), c ≠ x := by
  intro c hc
  have := List.all_takeWhile (p := fun c : UInt8 => c != x) (l := p)
  rw [List.all_eq_true] at this
  simpa using this c hc

theorem dropWhile_head {f : UInt8 → Bool} {t r : Text} {c : UInt8} (h : t.dropWhile f = c :: r) : f c = false := by
  have := List.head_dropWhile_not f (w := by rw [h]; simp) (l := t)
  simpa [h] using this

theorem dropWhile_replicate (p : Text) : ∃ k, p = List.replicate k 61 ++ p.dropWhile (· == 61) := by
  induction p with
  | nil => exact ⟨0, rfl⟩
  | cons c r ih =>
    by_cases h : c = 61
    · subst h
      obtain ⟨k, hk⟩ := ih
      refine ⟨k + 1, ?_⟩
      rw [List.dropWhile_cons, if_pos (by simp), List.replicate_succ, List.cons_append, ← hk]
    · exact ⟨0, by simp [h]⟩

theorem plain_ne {p : Text} (h : p ≠ []) : plain p ≠ [] := by
  cases p with
  | nil => exact absurd rfl h
  | cons c r => rw [plain_cons]; split <;> simp

/-- What is done behind a piece of a query. -/
def goOn (size : Nat) (q : Text) (w : Vars) : Out Vars :=
  match q with
  | [] => .ok w
  | c :: r => if c = 38 then decode size r 0 [] none w else .ok w

/-- Reading a piece of a query up to its end. -/
theorem decode_piece (size : Nat) (v : Vars) (p q : Text) (hp : ∀ c ∈ p, c ≠ 0 ∧ c ≠ 38)
    (hq : q = [] ∨ ∃ c r, q = c :: r ∧ (c = 0 ∨ c = 38)) (hs : p.length < size) :
    decode size (p ++ q) 0 [] none v = goOn size q (addAll v (one p)) := by
  have hq' : q = [] ∨ ∃ c r, q = c :: r ∧ (c = 0 ∨ c = 38 ∨ c = 61) := by
    rcases hq with h | ⟨c, r, h, hc⟩
    · exact .inl h
    · exact .inr ⟨c, r, h, by rcases hc with h | h <;> simp [h]⟩
  have finish : ∀ (buf : Text) (val : Option Nat) (w : Vars), flush size buf val v = .ok w →
      decode size q 0 buf val v = goOn size q w := by
    intro buf val w hw
    rcases hq with rfl | ⟨c, r, rfl, rfl | rfl⟩
    · exact hw
    · rw [decode, if_neg (by simp), if_pos rfl, hw]; rfl
    · rw [decode, if_neg (by simp), if_neg (by decide), if_pos rfl, hw]; rfl
  obtain ⟨k, hk⟩ := dropWhile_replicate p
  generalize hd : p.dropWhile (· == 61) = d at hk
  have hlen : p.length = k + d.length := by rw [hk]; simp
  have hd' : ∀ c ∈ d, c ≠ 0 ∧ c ≠ 38 := fun c hc => hp c (by rw [hk]; simp [hc])
  have hn : ∀ c ∈ d.takeWhile (· != 61), c ≠ 0 ∧ c ≠ 38 ∧ ((none : Option Nat) = none → c ≠ 61) := fun c hc =>
    ⟨(hd' c ((List.takeWhile_prefix _).subset hc)).1, (hd' c ((List.takeWhile_prefix _).subset hc)).2,
      fun _ => takeWhile_ne d c hc⟩
  have hdd : d = d.takeWhile (· != 61) ++ d.dropWhile (· != 61) := (List.takeWhile_append_dropWhile).symm
  have hone : one p = if d.takeWhile (· != 61) = [] then []
      else [(cstr (plain (d.takeWhile (· != 61))), cstr (plain ((d.dropWhile (· != 61)).drop 1)))] := by
    unfold one field
    simp only [hd]
    by_cases he : d.takeWhile (· != 61) = []
    · rw [if_pos he, if_pos he]
    · rw [if_neg he, if_neg he]
  rw [show p ++ q = List.replicate k 61 ++ (d ++ q) by rw [← List.append_assoc, ← hk], decode_equals, hone]
  generalize hnm : d.takeWhile (· != 61) = nm at *
  have hnl : (plain nm).length ≤ nm.length := plain_length _ nm (Nat.le_refl _)
  cases hw : d.dropWhile (· != 61) with
  | nil =>
    rw [hw, List.append_nil] at hdd
    rw [hdd, decode_plain size none v q _ nm [] (Nat.le_refl _) hn hq' (by rw [← hdd]; simp; omega), List.nil_append]
    apply finish
    rw [flush, put_ok (by have := congrArg List.length hdd; omega), bind_ok]
    by_cases he : nm = []
    · subst he
      simp [plain_nil, addAll]
    · rw [if_neg he]
      have := plain_ne he
      simp only [if_pos (List.length_pos_iff.2 this), cstr_name, addAll, List.foldl, List.drop_nil, plain_nil]
      rfl
  | cons c vs =>
    have hc61 : c = 61 := by simpa using dropWhile_head hw
    subst hc61
    rw [hw] at hdd
    have hdl : d.length = nm.length + vs.length + 1 := by rw [hdd]; simp; omega
    have hvs : ∀ c ∈ vs, c ≠ 0 ∧ c ≠ 38 ∧ (some (plain nm ++ [0]).length = none → c ≠ 61) := fun c hc =>
      ⟨(hd' c (by rw [hdd]; simp [hc])).1, (hd' c (by rw [hdd]; simp [hc])).2, fun h => by cases h⟩
    have hnn : nm ≠ [] := by
      intro he
      rw [he, List.nil_append] at hdd
      have : (p.dropWhile (· == 61)) = 61 :: vs := by rw [hd, hdd]
      have := dropWhile_head this
      simp at this
    have hvl : (plain vs).length ≤ vs.length := plain_length _ vs (Nat.le_refl _)
    rw [hdd, List.append_assoc, List.cons_append, decode_plain size none v _ _ nm [] (Nat.le_refl _) hn
      (.inr ⟨61, vs ++ q, rfl, by simp⟩) (by simp; omega), List.nil_append, decode, if_pos ⟨rfl, rfl⟩,
      if_pos (List.length_pos_iff.2 (plain_ne hnn)), put_ok (by omega), bind_ok,
      decode_plain size _ v q _ vs _ (Nat.le_refl _) hvs hq' (by simp; omega)]
    apply finish
    rw [flush, put_ok (by simp; omega), bind_ok, if_neg hnn]
    simp only [List.append_assoc, List.cons_append, List.nil_append, cstr_name, List.length_append, List.length_cons,
      List.length_nil]
    rw [show (plain nm).length + 1 = ((plain nm) ++ [0]).length by simp,
      show plain nm ++ 0 :: (plain vs ++ [0]) = (plain nm ++ [0]) ++ (plain vs ++ [0]) by simp, List.drop_left]
    simp [cstr_name, addAll]

theorem pieces_one {p : Text} (h : ∀ c ∈ p, c ≠ 38) : pieces p = [p] := by
  induction p with
  | nil => rfl
  | cons c r ih => rw [pieces, if_neg (h c (by simp)), ih (fun c hc => h c (by simp [hc]))]

theorem pieces_more {p : Text} (r : Text) (h : ∀ c ∈ p, c ≠ 38) : pieces (p ++ 38 :: r) = p :: pieces r := by
  induction p with
  | nil => simp [pieces]
  | cons c s ih => rw [List.cons_append, pieces, if_neg (h c (by simp)), ih (fun c hc => h c (by simp [hc]))]

/-- The fields of a query, as they are entered. -/
def entered (q : Text) : List (Text × Text) := (fields (cstr q)).map fun f => (cstr f.1, cstr f.2)

theorem decode_all (size : Nat) : ∀ (n : Nat) (q : Text) (v : Vars), q.length ≤ n → (cstr q).length < size →
    decode size q 0 [] none v = .ok (addAll v (entered q)) := by
  intro n
  induction n with
  | zero =>
    intro q v hn hs
    cases q with
    | cons c r => simp at hn
    | nil =>
      have := decode_piece size v [] [] (by simp) (.inl rfl) (by simpa [cstr] using hs)
      exact this
  | succ n ih =>
    intro q v hn hs
    obtain ⟨s, hq, hs'⟩ := cstr_split q
    have hno := cstr_no q
    generalize cstr q = t at *
    let p := t.takeWhile (· != 38)
    have hp38 : ∀ c ∈ p, c ≠ 38 := takeWhile_ne t
    have hp : ∀ c ∈ p, c ≠ 0 ∧ c ≠ 38 := fun c hc => ⟨by
      rintro rfl
      exact hno ((List.takeWhile_prefix _).subset hc), hp38 c hc⟩
    have htp : t = p ++ t.dropWhile (· != 38) := (List.takeWhile_append_dropWhile).symm
    have hpl : p.length ≤ t.length := (List.takeWhile_prefix _).length_le
    have hent : entered q = (fields t).map fun f => (cstr f.1, cstr f.2) := by
      unfold entered
      rw [hq]
      rcases hs' with rfl | ⟨r, rfl⟩
      · rw [List.append_nil, cstr_id hno]
      · rw [cstr_append_zero _ hno]
    rw [hent]
    have hone : ∀ p', ((([p'] : List Text).filterMap field).map fun f => (cstr f.1, cstr f.2)) = one p' := by
      intro p'
      unfold one
      cases h : field p' <;> simp [h]
    cases hd : t.dropWhile (· != 38) with
    | nil =>
      rw [hd, List.append_nil] at htp
      have : decode size (p ++ s) 0 [] none v = _ := decode_piece size v p s hp
        (by rcases hs' with h | ⟨r, h⟩
            · exact .inl h
            · exact .inr ⟨0, r, h, .inl rfl⟩) (by omega)
      rw [hq, htp, this, fields, pieces_one hp38, hone]
      rcases hs' with rfl | ⟨r, rfl⟩
      · rfl
      · rfl
    | cons c r =>
      have hc : c = 38 := by simpa using dropWhile_head hd
      subst hc
      rw [hd] at htp
      have hr0 : (0 : UInt8) ∉ r := fun h => hno (by rw [htp]; simp [h])
      have hql : q.length = p.length + r.length + s.length + 1 := by rw [hq, htp]; simp; omega
      have : decode size (p ++ 38 :: (r ++ s)) 0 [] none v = _ := decode_piece size v p (38 :: (r ++ s)) hp
        (.inr ⟨38, r ++ s, rfl, .inr rfl⟩) (by omega)
      have hcr : cstr (r ++ s) = r := by
        rcases hs' with rfl | ⟨u, rfl⟩
        · rw [List.append_nil, cstr_id hr0]
        · exact cstr_append_zero _ hr0
      rw [hq, htp, List.append_assoc, List.cons_append, this]
      rw [goOn, if_pos rfl, ih (r ++ s) _ (by simp; omega) (by rw [hcr]; rw [htp] at hs; simp at hs; omega)]
      rw [fields, pieces_more r hp38, ← addAll_append]
      congr 2
      rw [show p :: pieces r = [p] ++ pieces r from rfl, List.filterMap_append, List.map_append, hone]
      unfold entered
      rw [hcr]
      rfl

theorem decodeQuery_all (v : Vars) (q : Text) : decodeQuery v q = .ok (addAll v (entered q)) :=
  decode_all _ _ q v (Nat.le_refl _) (Nat.lt_succ_self _)

/-! ### Written fields -/

theorem plain_written {also : UInt8 → Bool} {t w : Text} (h : Written also t w) : plain w = t := by
  induction h with
  | nil => exact plain_nil
  | self c h _ ih =>
    rw [plain_cons, if_neg h.2.2.1]
    simp only [if_neg h.2.1, ih]
  | blank _ ih =>
    rw [plain_cons, if_neg (by decide)]
    simp [ih]
  | code c a b h _ ih =>
    rw [plain_cons, if_pos rfl, escape_eq, h]
    simp [ih]

theorem digit_ne {a : UInt8} {k : Nat} (h : digit a = some k) : a ≠ 0 ∧ a ≠ 38 ∧ a ≠ 61 := by
  refine ⟨?_, ?_, ?_⟩ <;> (rintro rfl; simp [digit] at h)

theorem pair_ne {a b c : UInt8} (h : pair a b = some c) : (a ≠ 0 ∧ a ≠ 38 ∧ a ≠ 61) ∧ (b ≠ 0 ∧ b ≠ 38 ∧ b ≠ 61) := by
  unfold pair at h
  cases ha : digit a with
  | none => simp [ha] at h
  | some x =>
    cases hb : digit b with
    | none => simp [ha, hb] at h
    | some y => exact ⟨digit_ne ha, digit_ne hb⟩

theorem written_ne {also : UInt8 → Bool} {t w : Text} (h : Written also t w) :
    ∀ c ∈ w, c ≠ 0 ∧ c ≠ 38 ∧ ((∀ c, also c = false) → c ≠ 61) := by
  induction h with
  | nil => simp
  | self c h _ ih =>
    intro d hd
    rcases List.mem_cons.1 hd with rfl | hd
    · refine ⟨h.2.2.2.1, h.1, fun ha => ?_⟩
      rcases h.2.2.2.2 with h | h
      · exact h
      · rw [ha] at h; cases h
    · exact ih d hd
  | blank _ ih =>
    intro d hd
    rcases List.mem_cons.1 hd with rfl | hd
    · exact ⟨by decide, by decide, fun _ => by decide⟩
    · exact ih d hd
  | code c a b h _ ih =>
    have := pair_ne h
    intro d hd
    rcases List.mem_cons.1 hd with rfl | hd
    · exact ⟨by decide, by decide, fun _ => by decide⟩
    rcases List.mem_cons.1 hd with rfl | hd
    · exact ⟨this.1.1, this.1.2.1, fun _ => this.1.2.2⟩
    rcases List.mem_cons.1 hd with rfl | hd
    · exact ⟨this.2.1, this.2.2.1, fun _ => this.2.2.2⟩
    · exact ih d hd

theorem field_item {i : Item} (h : i.Ok) : field (i.wname ++ 61 :: i.wvalue) = some (i.name, i.value) := by
  obtain ⟨hn, _, _, hw, hv⟩ := h
  have hwn : i.wname ≠ [] := by
    intro he
    rw [he] at hw
    have := plain_written hw
    rw [plain_nil] at this
    exact hn this.symm
  have h61 : ∀ c ∈ i.wname, c ≠ 61 := fun c hc => (written_ne hw c hc).2.2 (fun _ => rfl)
  unfold field
  have hd : (i.wname ++ 61 :: i.wvalue).dropWhile (· == 61) = i.wname ++ 61 :: i.wvalue := by
    cases hcase : i.wname with
    | nil => exact absurd hcase hwn
    | cons c r =>
      rw [List.cons_append, List.dropWhile_cons, if_neg]
      simpa using h61 c (by rw [hcase]; simp)
  have ht : (i.wname ++ 61 :: i.wvalue).takeWhile (· != 61) = i.wname := by
    rw [List.takeWhile_append_of_pos (by intro c hc; simpa using h61 c hc)]
    simp
  have hdw : (i.wname ++ 61 :: i.wvalue).dropWhile (· != 61) = 61 :: i.wvalue := by
    rw [List.dropWhile_append_of_pos (by intro c hc; simpa using h61 c hc)]
    simp
  simp only [hd, ht, hdw, if_neg hwn, plain_written hw, List.drop_succ_cons, List.drop_zero, plain_written hv]

theorem item_ne {i : Item} (h : i.Ok) : ∀ c ∈ i.wname ++ 61 :: i.wvalue, c ≠ 0 ∧ c ≠ 38 := by
  intro c hc
  rcases List.mem_append.1 hc with hc | hc
  · exact ⟨(written_ne h.2.2.2.1 c hc).1, (written_ne h.2.2.2.1 c hc).2.1⟩
  rcases List.mem_cons.1 hc with rfl | hc
  · decide
  · exact ⟨(written_ne h.2.2.2.2 c hc).1, (written_ne h.2.2.2.2 c hc).2.1⟩

theorem query_fields : ∀ (is : List Item), (∀ i ∈ is, i.Ok) →
    (0 : UInt8) ∉ query is ∧ fields (query is) = is.map fun i => (i.name, i.value)
  | [], _ => ⟨by simp [query], rfl⟩
  | [i], h => by
    have hi := h i (by simp)
    have hne := item_ne hi
    refine ⟨fun h0 => (hne 0 h0).1 rfl, ?_⟩
    rw [query, fields, pieces_one (fun c hc => (hne c hc).2)]
    simp [field_item hi]
  | i :: j :: is, h => by
    have hi := h i (by simp)
    have hne := item_ne hi
    obtain ⟨h0, hf⟩ := query_fields (j :: is) (fun k hk => h k (by simp [hk]))
    have e : query (i :: j :: is) = (i.wname ++ 61 :: i.wvalue) ++ 38 :: query (j :: is) := by
      simp [query]
    refine ⟨?_, ?_⟩
    · rw [e]
      intro hc
      rcases List.mem_append.1 hc with hc | hc
      · exact (hne 0 hc).1 rfl
      · rcases List.mem_cons.1 hc with hc | hc
        · exact absurd hc (by decide)
        · exact h0 hc
    · rw [e, fields, pieces_more _ (fun c hc => (hne c hc).2), List.filterMap_cons, field_item hi]
      unfold fields at hf
      simp only [hf, List.map_cons]

end Verif.Lemmas.Req
