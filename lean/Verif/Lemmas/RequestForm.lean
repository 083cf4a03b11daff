import Verif.Lemmas.Request

/-!
# Lemmas about cookies and forms
-/

namespace Verif.Lemmas.Req
open Verif Verif.Model Verif.Model.Req
open Verif.Spec.Req (Cookie cookieLine Part Boundary Quotable partsText form formKind said uploads disposition filenameMark
  kindMark small Cased Style usual)

theorem takeWhile_left {f : UInt8 → Bool} {a : Text} (b : Text) (h : ∀ c ∈ a, f c = true)
    (hb : b = [] ∨ ∃ c r, b = c :: r ∧ f c = false) : (a ++ b).takeWhile f = a := by
  rw [List.takeWhile_append_of_pos h]
  rcases hb with rfl | ⟨c, r, rfl, hc⟩
  · simp
  · simp [hc]

/-! ## Attributes -/

theorem scanspaces_id {t : Text} (h : t.head? ≠ some 32 ∧ t.head? ≠ some 9) : scanspaces t = t := by
  cases t with
  | nil => rfl
  | cons c r =>
    simp only [List.head?_cons, ne_eq, Option.some.injEq] at h
    simp [scanspaces, h.1, h.2]

theorem scanattr_blank (t : Text) : scanattr (32 :: t) = scanattr t := rfl

theorem scanattr_eq {n : Text} (r : Text) (hn : n ≠ []) (h61 : (61 : UInt8) ∉ n)
    (hb : n.head? ≠ some 32 ∧ n.head? ≠ some 9) : scanattr (n ++ 61 :: r) = (scanvalue r).map fun x => (n, x) := by
  have hsp : scanspaces (n ++ 61 :: r) = n ++ 61 :: r := by
    apply scanspaces_id
    cases n with
    | nil => exact absurd rfl hn
    | cons c s => simpa using hb
  have ht : (n ++ 61 :: r).takeWhile (· != 61) = n := by
    apply takeWhile_left
    · intro c hc
      simp only [bne_iff_ne, ne_eq]
      rintro rfl
      exact h61 hc
    · exact .inr ⟨61, r, rfl, by simp⟩
  unfold scanattr
  simp only [hsp, ht, List.drop_left, if_neg hn]

theorem scanvalue_quoted {x : Text} (u : Text) (h : (34 : UInt8) ∉ x) :
    scanvalue (34 :: (x ++ 34 :: u)) = some (x, if u.head? = some 59 then u.drop 1 else u) := by
  have ht : (x ++ 34 :: u).takeWhile (· != 34) = x := by
    apply takeWhile_left
    · intro c hc
      simp only [bne_iff_ne, ne_eq]
      rintro rfl
      exact h hc
    · exact .inr ⟨34, u, rfl, by simp⟩
  unfold scanvalue
  simp only [true_or, if_true, ht, List.drop_left]

theorem scanvalue_plain {x r : Text} (h : ∀ c ∈ x, stops c = false)
    (hq : x.head? ≠ some 34 ∧ x.head? ≠ some 39 ∧ x.head? ≠ some 96) (hr : r = [] ∨ ∃ s, r = 59 :: s) :
    scanvalue (x ++ r) = some (x, r.drop 1) := by
  have ht : (x ++ r).takeWhile (fun c => !stops c) = x := by
    apply takeWhile_left
    · intro c hc; simp [h c hc]
    · rcases hr with h | ⟨s, h⟩
      · exact .inl h
      · exact .inr ⟨59, s, h, by decide⟩
  have key : ∀ q s, x ++ r = q :: s → ¬ (q = 34 ∨ q = 39 ∨ q = 96) → scanvalue (x ++ r) = some (x, r.drop 1) := by
    intro q s e hn
    rw [e]
    simp only [scanvalue, if_neg hn]
    rw [← e, ht, ← List.drop_drop, List.drop_left]
  cases x with
  | nil =>
    rcases hr with rfl | ⟨s, rfl⟩
    · rfl
    · exact key 59 s rfl (by decide)
  | cons c x =>
    refine key c (x ++ r) rfl ?_
    simpa using hq

theorem drop_short {α : Type} {t : List α} (n : Nat) : (t.drop n).length ≤ t.length := by simp

theorem scanvalue_short {r x u : Text} (h : scanvalue r = some (x, u)) : u.length ≤ r.length := by
  cases r with
  | nil =>
    simp only [scanvalue, Option.some.injEq, Prod.mk.injEq] at h
    rw [← h.2]
    simp
  | cons q s =>
    unfold scanvalue at h
    simp only at h
    split at h
    · split at h
      · cases h
      · rename_i u' hd
        simp only [Option.some.injEq, Prod.mk.injEq] at h
        have hl := congrArg List.length hd
        simp only [List.length_drop, List.length_cons] at hl
        rw [← h.2]
        split
        · simp; omega
        · simp; omega
    · simp only [Option.some.injEq, Prod.mk.injEq] at h
      rw [← h.2]
      exact drop_short _

theorem scanattr_short {t n x r : Text} (h : scanattr t = some (n, x, r)) : r.length < t.length := by
  unfold scanattr at h
  simp only at h
  split at h
  · cases h
  · rename_i c s hd
    split at h
    · cases h
    · simp only [Option.map_eq_some_iff, Prod.mk.injEq, Prod.exists] at h
      obtain ⟨x', u, hv, _, _, rfl⟩ := h
      have h1 := scanvalue_short hv
      have hl := congrArg List.length hd
      simp only [List.length_drop, List.length_cons] at hl
      have h2 : (scanspaces t).length ≤ t.length := (List.dropWhile_suffix _).length_le
      omega

/-! ## Cookies -/

theorem cookies_ends : ∀ (n : Nat) (t : Text) (v : Vars), t.length < n → ∃ w, cookies n t v = .ok w
  | 0, _, _, h => by omega
  | n + 1, t, v, h => by
    rw [cookies]
    cases hs : scanattr t with
    | none => exact ⟨v, rfl⟩
    | some e =>
      obtain ⟨m, x, r⟩ := e
      exact cookies_ends n r _ (by have := scanattr_short hs; omega)

theorem cookie_scan {c : Cookie} (h : c.Ok) (r : Text) (hr : r = [] ∨ ∃ s, r = 59 :: s) :
    scanattr (c.text ++ r) = some (c.name, c.value, r.drop 1) := by
  obtain ⟨hn, h61, hb1, hb2, _, _, hv⟩ := h
  by_cases hq : c.quoted = true
  · rw [if_pos hq] at hv
    have : c.text ++ r = c.name ++ 61 :: (34 :: (c.value ++ 34 :: r)) := by
      simp [Cookie.text, hq]
    rw [this, scanattr_eq _ hn h61 ⟨hb1, hb2⟩, scanvalue_quoted _ hv]
    rcases hr with rfl | ⟨s, rfl⟩ <;> simp
  · rw [if_neg hq] at hv
    have : c.text ++ r = c.name ++ 61 :: (c.value ++ r) := by
      simp [Cookie.text, hq]
    rw [this, scanattr_eq _ hn h61 ⟨hb1, hb2⟩, scanvalue_plain (fun b hb => by
      have := hv.1 b hb
      simp [stops, this.1, this.2.1, this.2.2.1, this.2.2.2.1, this.2.2.2.2]) hv.2 hr]
    rfl

theorem cookies_line : ∀ (cs : List Cookie) (n : Nat) (v : Vars), (∀ c ∈ cs, c.Ok) → (cookieLine cs).length < n →
    cookies n (cookieLine cs) v = .ok (addAll v (cs.map fun c => (c.name, c.value)))
  | _, 0, _, _, h => by omega
  | [], n + 1, v, _, _ => rfl
  | [c], n + 1, v, hc, h => by
    have := cookie_scan (hc c (by simp)) [] (.inl rfl)
    rw [List.append_nil] at this
    rw [cookieLine, cookies, this]
    cases n with
    | zero =>
      exfalso
      simp only [cookieLine, Cookie.text, List.length_append, List.length_cons] at h
      omega
    | succ n => rfl
  | c :: d :: cs, n + 1, v, hc, h => by
    have hs := cookie_scan (hc c (by simp)) (59 :: 32 :: cookieLine (d :: cs)) (.inr ⟨_, rfl⟩)
    have hl : (cookieLine (c :: d :: cs)) = c.text ++ 59 :: 32 :: cookieLine (d :: cs) := rfl
    rw [hl] at h
    rw [hl, cookies, hs]
    simp only [List.drop_succ_cons, List.drop_zero]
    have ih := cookies_line (d :: cs) n (addVar v c.name c.value) (fun c hc' => hc c (by simp [hc']))
      (by simp at h; omega)
    cases n with
    | zero => simp at h
    | succ n =>
      rw [cookies] at ih ⊢
      rw [scanattr_blank, ih]
      simp [addAll]

theorem cookieLine_zero : ∀ (cs : List Cookie), (∀ c ∈ cs, c.Ok) → (0 : UInt8) ∉ cookieLine cs := by
  have one : ∀ c : Cookie, c.Ok → (0 : UInt8) ∉ c.text := by
    intro c h
    obtain ⟨_, _, _, _, h0, hv, _⟩ := h
    unfold Cookie.text
    cases c.quoted <;> simp [h0, hv]
  intro cs
  induction cs with
  | nil => simp [cookieLine]
  | cons c cs ih =>
    intro h
    have hc := one c (h c (by simp))
    have ih := ih (fun c hc => h c (by simp [hc]))
    cases cs with
    | nil => exact hc
    | cons d cs =>
      show (0 : UInt8) ∉ c.text ++ 59 :: 32 :: cookieLine (d :: cs)
      simp only [List.mem_append, List.mem_cons, not_or]
      exact ⟨hc, by decide, by decide, ih⟩

/-! ## Reading up to the boundary -/

theorem same_eq {b : Text} (hb : ∀ c ∈ b, c.toNat < 128) (c : UInt8) (k : Nat) :
    (decide (c.toNat < 128) && b[k]? == some c) = (b[k]? == some c) := by
  by_cases h : b[k]? = some c
  · rw [h]
    simp only [beq_self_eq_true, Bool.and_true, decide_eq_true_eq]
    exact hb c (List.mem_of_getElem? h)
  · have : (b[k]? == some c) = false := by simpa using h
    rw [this, Bool.and_false]

theorem prefix_get {b x y : Text} (h : x ++ b ++ y = z) (k : Nat) (hk : k < b.length) : z[x.length + k]? = b[k]? := by
  rw [← h, List.append_assoc, List.getElem?_append_right (by omega), List.getElem?_append_left (by omega)]
  congr 1
  omega

/-- The boundary starts with a byte that it has nowhere else. -/
def Lead (b : Text) : Prop := 1 < b.length ∧ ∀ k, 0 < k → k < b.length → b[k]? ≠ b[0]?

/-- The first place where `b` stands in `t` is behind `pre`. -/
def First (b t pre post : Text) : Prop :=
  t = pre ++ b ++ post ∧ ∀ p q, t = p ++ b ++ q → pre.length ≤ p.length

theorem first_skip {b pre post x y : Text} (h : First b (x ++ y) pre post) (hx : x.length ≤ pre.length) :
    ∃ pre', pre = x ++ pre' ∧ First b y pre' post := by
  obtain ⟨he, hm⟩ := h
  have hp : x <+: pre := by
    have h1 : x <+: x ++ y := List.prefix_append _ _
    have h2 : pre <+: x ++ y := by rw [he, List.append_assoc]; exact List.prefix_append _ _
    exact List.prefix_of_prefix_length_le h1 h2 hx
  obtain ⟨pre', rfl⟩ := hp
  refine ⟨pre', rfl, ?_, ?_⟩
  · apply List.append_cancel_left (as := x)
    rw [he]
    simp
  · intro p q e
    have := hm (x ++ p) q (by rw [e]; simp)
    simp at this
    exact this

theorem copy_first {b : Text} (hb : ∀ c ∈ b, c.toNat < 128) (hl : Lead b) : ∀ (t : Text) (m : Nat) (out pre post : Text),
    m < b.length → First b (b.take m ++ t) pre post → copyLoop b t m out = (out ++ pre, post) := by
  intro t
  induction t with
  | nil =>
    intro m out pre post hm h
    exfalso
    have := congrArg List.length h.1
    simp at this
    omega
  | cons c r ih =>
    intro m out pre post hm h
    have h0 : 0 < b.length := by omega
    rw [copyLoop]
    simp only [same_eq hb]
    by_cases hs : b[m]? = some c
    · -- goes on with the match
      have hst : (b[m]? == some c) = true := by simpa using hs
      simp only [hst, Bool.not_true, Bool.and_false, Bool.false_eq_true, if_false, if_true]
      have ht : b.take (m + 1) ++ r = b.take m ++ c :: r := by
        rw [List.take_add_one, hs]
        simp
      by_cases he : m + 1 = b.length
      · rw [if_pos he]
        rw [← ht, he, List.take_length] at h
        have := h.2 [] r rfl
        have hp : pre = [] := by
          cases pre with
          | nil => rfl
          | cons _ _ => simp at this
        have h1 := h.1
        subst hp
        simp only [List.nil_append] at h1
        rw [List.append_cancel_left h1]
        simp
      · rw [if_neg he]
        exact ih (m + 1) out pre post (by omega) (by rw [ht]; exact h)
    · have hsf : (b[m]? == some c) = false := by simpa using hs
      -- no place up to `m` is a match
      have hge : m ≤ pre.length := by
        rcases Nat.lt_or_ge pre.length m with hlt | hge
        · exfalso
          rcases Nat.eq_zero_or_pos pre.length with hp0 | hp
          · have hp0' : pre = [] := List.eq_nil_of_length_eq_zero hp0
            have := prefix_get (b := b) (x := pre) h.1.symm m hm
            rw [hp0, Nat.zero_add, List.getElem?_append_right (by simp; omega)] at this
            simp only [List.length_take, Nat.min_eq_left (Nat.le_of_lt hm), Nat.sub_self, List.getElem?_cons_zero] at this
            exact hs this.symm
          · have := prefix_get (b := b) (x := pre) h.1.symm 0 h0
            rw [Nat.add_zero, List.getElem?_append_left (by simp; omega), List.getElem?_take_of_lt hlt] at this
            exact hl.2 pre.length hp (by omega) this
        · exact hge
      have hlen : (b.take m).length = m := by simp; omega
      obtain ⟨pre', rfl, hf⟩ := first_skip h (by omega)
      have e : (if (decide (0 < m) && !(b[m]? == some c)) = true then out ++ b.take m else out) = out ++ b.take m := by
        rcases Nat.eq_zero_or_pos m with rfl | hp
        · simp
        · simp [hsf, hp]
      have e' : (if (decide (0 < m) && !(b[m]? == some c)) = true then 0 else m) = 0 := by
        rcases Nat.eq_zero_or_pos m with rfl | hp
        · simp
        · simp [hsf, hp]
      rw [e, e']
      by_cases hc : b[0]? = some c
      · have hct : (b[0]? == some c) = true := by simpa using hc
        rw [if_pos hct, if_neg (by have := hl.1; omega)]
        rw [ih 1 (out ++ b.take m) pre' post hl.1 (by
          have : b.take 1 = [c] := by
            cases b with
            | nil => simp at h0
            | cons d b => simp at hc; simp [hc]
          rw [this]
          exact hf)]
        simp
      · have hcf : ¬ (b[0]? == some c) = true := by simpa using hc
        rw [if_neg hcf]
        have hge' : 1 ≤ pre'.length := by
          rcases Nat.eq_zero_or_pos pre'.length with hp0 | hp
          · exfalso
            have := prefix_get (b := b) (x := pre') hf.1.symm 0 h0
            rw [hp0] at this
            simp at this
            exact hc this.symm
          · exact hp
        obtain ⟨pre'', rfl, hf'⟩ := first_skip (x := [c]) (y := r) hf (by simpa using hge')
        rw [ih 0 _ pre'' post h0 (by simpa using hf')]
        simp

theorem first_of_no {b x : Text} (post : Text) (hl : Lead b) (hx : ¬ b <:+: x) : First b (x ++ b ++ post) x post := by
  refine ⟨rfl, fun p q e => ?_⟩
  rcases Nat.lt_or_ge p.length x.length with hlt | hge
  · exfalso
    rcases Nat.lt_or_ge x.length (p.length + b.length) with h1 | h1
    · -- the places overlap
      have h2 := prefix_get (b := b) (x := p) e.symm (x.length - p.length) (by omega)
      have h3 : (x ++ b ++ post)[x.length + 0]? = b[0]? := prefix_get rfl 0 (by omega)
      rw [show p.length + (x.length - p.length) = x.length + 0 by omega, h3] at h2
      exact hl.2 _ (by omega) (by omega) h2.symm
    · apply hx
      have hp1 : p ++ b <+: x ++ b ++ post := by rw [e]; exact List.prefix_append _ _
      have hp2 : x <+: x ++ b ++ post := by rw [List.append_assoc]; exact List.prefix_append _ _
      have := List.prefix_of_prefix_length_le hp1 hp2 (by simp; omega)
      obtain ⟨z, hz⟩ := this
      exact ⟨p, z, hz⟩
  · exact hge

theorem copyLoop_rest {b : Text} : ∀ (t : Text) (m : Nat) (out : Text), (copyLoop b t m out).2.length ≤ t.length := by
  intro t
  induction t with
  | nil => intro m out; simp [copyLoop]
  | cons c r ih =>
    intro m out
    rw [copyLoop]
    simp only
    generalize (if (decide (0 < m) && !(decide (c.toNat < 128) && b[m]? == some c)) = true then out ++ b.take m else out) = o
    generalize (if (decide (0 < m) && !(decide (c.toNat < 128) && b[m]? == some c)) = true then 0 else m) = k
    split
    · split
      · simp
      · have := ih (k + 1) o
        simp only [List.length_cons]; omega
    · have := ih k (o ++ [c])
      simp only [List.length_cons]; omega

/-! ## Lines -/

theorem readline_eq {a : Text} (r : Text) (h : (10 : UInt8) ∉ a) : readline (a ++ 10 :: r) = some (a ++ [10], r) := by
  have ht : (a ++ 10 :: r).takeWhile (· != 10) = a := by
    apply takeWhile_left
    · intro c hc
      simp only [bne_iff_ne, ne_eq]
      rintro rfl
      exact h hc
    · exact .inr ⟨10, r, rfl, by simp⟩
  unfold readline
  simp only [ht]
  rw [if_neg (by simp)]
  have e : a ++ 10 :: r = (a ++ [10]) ++ r := by simp
  have hl : a.length + 1 = (a ++ [10]).length := by simp
  rw [e, hl, List.take_left, List.drop_left]

theorem readline_short {inp l r : Text} (h : readline inp = some (l, r)) : r.length < inp.length := by
  unfold readline at h
  simp only at h
  split at h
  · cases h
  · rename_i hn
    simp only [Option.some.injEq, Prod.mk.injEq] at h
    rw [← h.2]
    have : 0 < inp.length := List.length_pos_iff.2 hn
    simp; omega

theorem attributes_ends : ∀ (n : Nat) (t : Text) (s : Option Text × Option Text), t.length < n →
    ∃ w, attributes n t s = .ok w
  | 0, _, _, h => by omega
  | n + 1, t, s, h => by
    rw [attributes]
    cases hs : scanattr t with
    | none => exact ⟨s, rfl⟩
    | some e =>
      obtain ⟨m, x, r⟩ := e
      exact attributes_ends n r _ (by have := scanattr_short hs; omega)

theorem heads_ends : ∀ (n : Nat) (t : Text) (s : Option Text × Option Text), t.length < n →
    ∃ l w r, heads n t s = .ok (l, w, r) ∧ (∀ x, l = some x → r.length < t.length)
  | 0, _, _, h => by omega
  | n + 1, t, s, h => by
    rw [heads]
    cases hs : readline t with
    | none => exact ⟨none, s, t, rfl, by simp⟩
    | some e =>
      obtain ⟨l, rest⟩ := e
      have hlt := readline_short hs
      simp only
      cases hh : scanheader (cstr l) with
      | none => exact ⟨some l, s, rest, rfl, fun _ _ => hlt⟩
      | some e =>
        obtain ⟨hn, x, r⟩ := e
        simp only
        split
        · obtain ⟨w, hw⟩ := attributes_ends (r.length + 1) r s (by omega)
          rw [hw, bind_ok]
          obtain ⟨l', w', r', he, hr⟩ := heads_ends n rest w (by omega)
          exact ⟨l', w', r', he, fun x hx => by have := hr x hx; omega⟩
        · obtain ⟨l', w', r', he, hr⟩ := heads_ends n rest s (by omega)
          exact ⟨l', w', r', he, fun x hx => by have := hr x hx; omega⟩

theorem parts_ends (tmp : Temp) (b : Text) : ∀ (n : Nat) (t : Text) (g : Got), t.length < n → ∃ w, parts tmp b n t g = .ok w
  | 0, _, _, h => by omega
  | n + 1, t, g, h => by
    rw [parts]
    obtain ⟨l, w, r, he, hr⟩ := heads_ends (t.length + 1) t (none, none) (by omega)
    rw [he, bind_ok]
    match l, w with
    | some l, (some nm, f) =>
      simp only
      have hlt := hr l rfl
      split
      · have hc := copyLoop_rest (b := b) r 0 []
        cases hl : readline (copyLoop b r 0 []).2 with
        | none => exact parts_ends tmp b n [] _ (by simp; omega)
        | some e =>
          obtain ⟨l', rest⟩ := e
          have := readline_short hl
          simp only
          split
          · exact ⟨_, rfl⟩
          · exact parts_ends tmp b n rest _ (by omega)
      · exact ⟨g, rfl⟩
    | some l, (none, f) => exact ⟨g, rfl⟩
    | none, w => exact ⟨g, rfl⟩

/-! ## The parts of a form -/

theorem lower_eq (c : UInt8) : lower c = small c := by
  unfold lower small
  simp only [UInt8.le_iff_toNat_le, UInt8.reduceToNat]

theorem cased_same {a b : Text} (h : Cased a b) : samecase a b = true := by
  have : lower = small := funext lower_eq
  unfold samecase
  rw [this]
  simpa [Cased] using h

theorem cased_not {a b : Text} (h : Cased a b) {x : UInt8} (hx : small x = x) (hb : x ∉ b.map small) : x ∉ a := fun hm => by
  apply hb
  rw [← h, ← hx]
  exact List.mem_map_of_mem hm

theorem cased_length {a b : Text} (h : Cased a b) : a.length = b.length := by
  have := congrArg List.length h
  simpa using this

theorem cased_head {a b : Text} (h : Cased a b) {x : UInt8} (hx : small x = x) (hb : x ∉ b.map small) (r : Text) (hr : a ≠ []) :
    (a ++ r).head? ≠ some x := by
  cases a with
  | nil => exact absurd rfl hr
  | cons c a =>
    intro e
    simp at e
    exact cased_not h hx hb (by simp [e])

theorem cased_ne {a b : Text} (h : Cased a b) (hb : b ≠ []) : a ≠ [] := by
  rintro rfl
  have := cased_length h
  exact hb (List.eq_nil_of_length_eq_zero this.symm)

theorem small_c {c : UInt8} (h : small c = 99) : isalnum c = true := by
  have hc := congrArg UInt8.toNat h
  unfold small at hc
  simp only [isalnum, UInt8.le_iff_toNat_le, UInt8.reduceToNat, Bool.or_eq_true, Bool.and_eq_true, decide_eq_true_eq]
  split at hc
  · omega
  · simp at hc; omega

variable {st : Style}

theorem scanheader_disposition (hs : st.Ok) (t : Text) :
    scanheader (disposition st ++ t) = some (st.disposition, st.formData, 32 :: (st.name ++ 61 :: 34 :: t)) := by
  obtain ⟨hd, hf, _⟩ := hs
  have e : disposition st ++ t = st.disposition ++ 58 :: 32 :: (st.formData ++ 59 :: 32 :: (st.name ++ 61 :: 34 :: t)) := by
    simp [disposition]
  have ht : (st.disposition ++ 58 :: 32 :: (st.formData ++ 59 :: 32 :: (st.name ++ 61 :: 34 :: t))).takeWhile (· != 58) =
      st.disposition := by
    apply takeWhile_left
    · intro c hc
      simp only [bne_iff_ne, ne_eq]
      rintro rfl
      exact cased_not hd (by decide) (by decide) hc
    · exact .inr ⟨58, _, rfl, by simp⟩
  have ht2 : (st.formData ++ 59 :: 32 :: (st.name ++ 61 :: 34 :: t)).takeWhile (fun c => c != 59 && c != 13 && c != 10) =
      st.formData := by
    apply takeWhile_left
    · intro c hc
      simp only [bne_iff_ne, ne_eq, Bool.and_eq_true]
      refine ⟨⟨?_, ?_⟩, ?_⟩ <;> rintro rfl
      · exact cased_not hf (by decide) (by decide) hc
      · exact cased_not hf (by decide) (by decide) hc
      · exact cased_not hf (by decide) (by decide) hc
    · exact .inr ⟨59, _, rfl, by simp⟩
  have hsp : scanspaces (32 :: (st.formData ++ 59 :: 32 :: (st.name ++ 61 :: 34 :: t))) =
      st.formData ++ 59 :: 32 :: (st.name ++ 61 :: 34 :: t) :=
    (show _ = scanspaces _ from rfl).trans (scanspaces_id
      ⟨cased_head hf (by decide) (by decide) _ (cased_ne hf (by decide)),
        cased_head hf (by decide) (by decide) _ (cased_ne hf (by decide))⟩)
  rw [e]
  cases hc : st.disposition with
  | nil => exact absurd hc (cased_ne hd (by decide))
  | cons c d =>
    have ha : isalnum c = true := by
      apply small_c
      have := congrArg List.head? hd
      rw [hc] at this
      have hu : usual.disposition.head? = some 67 := rfl
      simp only [List.map_cons, List.head?_cons, List.head?_map, hu, Option.map_some, Option.some.injEq] at this
      exact this.trans (by decide)
    rw [hc] at ht
    unfold scanheader
    simp only [List.cons_append] at ht ⊢
    rw [if_neg (by simp [ha]), ht, ← List.cons_append, List.drop_left]
    simp only [hsp, ht2]
    rw [← List.drop_drop, List.drop_left]
    rfl

theorem scanheader_kind (t : Text) : ∃ x r,
    scanheader (kindMark ++ t) = some ([67, 111, 110, 116, 101, 110, 116, 45, 84, 121, 112, 101], x, r) := ⟨_, _, rfl⟩

theorem scan_word {w w' n : Text} (u : Text) (hw : Cased w w') (h61 : (61 : UInt8) ∉ w'.map small)
    (h32 : (32 : UInt8) ∉ w'.map small) (h9 : (9 : UInt8) ∉ w'.map small) (hne : w' ≠ []) (h : (34 : UInt8) ∉ n) :
    scanattr (32 :: (w ++ 61 :: 34 :: (n ++ 34 :: u))) = some (w, n, if u.head? = some 59 then u.drop 1 else u) := by
  have hn := cased_ne hw hne
  have hb := cased_head hw (x := 32) (by decide) h32 [] hn
  have hb' := cased_head hw (x := 9) (by decide) h9 [] hn
  rw [List.append_nil] at hb hb'
  rw [scanattr_blank, scanattr_eq _ hn (cased_not hw (by decide) h61) ⟨hb, hb'⟩, scanvalue_quoted _ h]
  rfl

theorem attributes_name (hs : st.Ok) {n : Text} {j : Nat} (hj : 2 ≤ j) (h : (34 : UInt8) ∉ n) :
    attributes j (32 :: (st.name ++ 61 :: 34 :: (n ++ [34, 13, 10]))) (none, none) = .ok (some n, none) := by
  obtain ⟨k, rfl⟩ : ∃ k, j = k + 2 := ⟨j - 2, by omega⟩
  have hn : samecase st.name sName = true := cased_same hs.2.2.1
  rw [attributes, scan_word [13, 10] hs.2.2.1 (by decide) (by decide) (by decide) (by decide) h]
  simp only [hn, Option.isNone_none, Bool.and_self, if_true]
  rfl

theorem filename_other (hs : st.Ok) : samecase st.filename sName = false := by
  unfold samecase
  have := cased_length hs.2.2.2.1
  rw [beq_eq_false_iff_ne]
  intro e
  have := congrArg List.length e
  simp at this
  simp [usual, sName] at *
  omega

theorem attributes_file (hs : st.Ok) {n f : Text} {j : Nat} (hj : 3 ≤ j) (h : (34 : UInt8) ∉ n) (hf : (34 : UInt8) ∉ f) :
    attributes j (32 :: (st.name ++ 61 :: 34 :: (n ++ 34 :: (filenameMark st ++ (f ++ [34, 13, 10]))))) (none, none) =
      .ok (some n, some f) := by
  obtain ⟨k, rfl⟩ : ∃ k, j = k + 3 := ⟨j - 3, by omega⟩
  have hn : samecase st.name sName = true := cased_same hs.2.2.1
  have hfn : samecase st.filename sFilename = true := cased_same hs.2.2.2.1
  rw [attributes, scan_word _ hs.2.2.1 (by decide) (by decide) (by decide) (by decide) h]
  have e : filenameMark st ++ (f ++ [34, 13, 10]) = 59 :: 32 :: (st.filename ++ 61 :: 34 :: (f ++ 34 :: [13, 10])) := by
    simp [filenameMark]
  simp only [hn, Option.isNone_none, Bool.and_self, if_true, e, List.head?_cons, List.drop_succ_cons, List.drop_zero]
  rw [attributes, scan_word [13, 10] hs.2.2.2.1 (by decide) (by decide) (by decide) (by decide) hf]
  simp only [hfn, Option.isNone_none, Option.isNone_some, Bool.and_self, Bool.false_and, if_true, if_false, Bool.false_eq_true]
  rfl

theorem heads_blank (k : Nat) (r : Text) (s : Option Text × Option Text) :
    heads (k + 1) (13 :: 10 :: r) s = .ok (some [13, 10], s, r) := by
  rw [heads, show (13 : UInt8) :: 10 :: r = [13] ++ 10 :: r from rfl, readline_eq r (by decide)]
  rfl

/-- The file name of a part. -/
def fileOf : Part → Option Text
  | .value _ _ => none
  | .file _ f _ _ => some f

/-- How many files a part makes. -/
def made : Part → Nat
  | .value _ _ => 0
  | .file _ f _ _ => if f = [] then 0 else 1

theorem disposition_not (hs : st.Ok) {x : UInt8} (hx : small x = x) (h1 : x ∉ usual.disposition.map small)
    (h2 : x ∉ usual.formData.map small) (h3 : x ∉ usual.name.map small) (h4 : x ∉ ([58, 32, 59, 32, 61, 34] : Text)) :
    x ∉ disposition st := by
  simp only [List.mem_cons, List.not_mem_nil, or_false, not_or] at h4
  simp only [disposition, List.mem_append, List.mem_cons, List.not_mem_nil, or_false, not_or]
  exact ⟨⟨⟨⟨⟨cased_not hs.1 hx h1, h4.1, h4.2.1⟩, cased_not hs.2.1 hx h2⟩, h4.2.2.1, h4.2.1⟩, cased_not hs.2.2.1 hx h3⟩,
    h4.2.2.2.2.1, h4.2.2.2.2.2⟩

theorem filename_not (hs : st.Ok) {x : UInt8} (hx : small x = x) (h1 : x ∉ usual.filename.map small)
    (h4 : x ∉ ([59, 32, 61, 34] : Text)) : x ∉ filenameMark st := by
  simp only [List.mem_cons, List.not_mem_nil, or_false, not_or] at h4
  simp only [filenameMark, List.mem_append, List.mem_cons, List.not_mem_nil, or_false, not_or]
  exact ⟨⟨⟨h4.1, h4.2.1⟩, cased_not hs.2.2.2.1 hx h1⟩, h4.2.2.1, h4.2.2.2⟩

theorem disposition_10 (hs : st.Ok) : (10 : UInt8) ∉ disposition st :=
  disposition_not hs (by decide) (by decide) (by decide) (by decide) (by decide)

theorem disposition_0 (hs : st.Ok) : (0 : UInt8) ∉ disposition st :=
  disposition_not hs (by decide) (by decide) (by decide) (by decide) (by decide)

theorem heads_part (hs : st.Ok) {b : Text} {p : Part} (h : p.Ok b) (k : Nat) (r : Text) :
    heads (k + 3) (p.head st ++ r) (none, none) = .ok (some [13, 10], (some p.name, fileOf p), r) := by
  have hd : samecase st.disposition sDisposition = true := cased_same hs.1
  have hfd : samecase st.formData sFormData = true := cased_same hs.2.1
  cases p with
  | value n v =>
    obtain ⟨⟨h0, h34, h10⟩, _, _⟩ := h
    have h0 : (0 : UInt8) ∉ n := h0
    have h34 : (34 : UInt8) ∉ n := h34
    have h10 : (10 : UInt8) ∉ n := h10
    have e : (Part.value n v).head st ++ r = (disposition st ++ n ++ [34, 13]) ++ 10 :: (13 :: 10 :: r) := by
      simp [Part.head]
    rw [e, heads, readline_eq _ (by simp [disposition_10 hs, h10])]
    have hc : cstr (disposition st ++ n ++ [34, 13] ++ [10]) = disposition st ++ (n ++ [34, 13, 10]) := by
      rw [cstr_id (by simp [disposition_0 hs, h0])]
      simp
    simp only
    rw [hc, scanheader_disposition hs]
    simp only
    rw [if_pos (by rw [hd, hfd]; rfl), attributes_name hs (by simp) h34, bind_ok, heads_blank]
    rfl
  | file n f kd c =>
    obtain ⟨⟨h0, h34, h10⟩, _, ⟨hf0, hf34, hf10⟩, hk⟩ := h
    have h0 : (0 : UInt8) ∉ n := h0
    have h34 : (34 : UInt8) ∉ n := h34
    have h10 : (10 : UInt8) ∉ n := h10
    have m10 : (10 : UInt8) ∉ filenameMark st := filename_not hs (by decide) (by decide) (by decide)
    have m0 : (0 : UInt8) ∉ filenameMark st := filename_not hs (by decide) (by decide) (by decide)
    have first : ∀ (k : Nat) (u : Text), heads (k + 1) ((disposition st ++ n ++ 34 :: filenameMark st ++ f ++ [34, 13]) ++ 10 :: u) (none, none) =
        heads k u (some n, some f) := by
      intro k u
      rw [heads, readline_eq _ (by simp [disposition_10 hs, h10, m10, hf10])]
      have hc : cstr (disposition st ++ n ++ 34 :: filenameMark st ++ f ++ [34, 13] ++ [10]) =
          disposition st ++ (n ++ 34 :: (filenameMark st ++ (f ++ [34, 13, 10]))) := by
        rw [cstr_id (by simp [disposition_0 hs, h0, m0, hf0])]
        simp
      simp only
      rw [hc, scanheader_disposition hs]
      simp only
      rw [if_pos (by rw [hd, hfd]; rfl), attributes_file hs (by simp; omega) h34 hf34, bind_ok]
    cases kd with
    | none =>
      have e : (Part.file n f none c).head st ++ r = (disposition st ++ n ++ 34 :: filenameMark st ++ f ++ [34, 13]) ++ 10 :: (13 :: 10 :: r) := by
        simp [Part.head]
      rw [e, first, heads_blank]
      rfl
    | some kd =>
      obtain ⟨hk0, hk10⟩ := hk kd rfl
      have e : (Part.file n f (some kd) c).head st ++ r =
          (disposition st ++ n ++ 34 :: filenameMark st ++ f ++ [34, 13]) ++ 10 :: ((kindMark ++ kd ++ [13]) ++ 10 :: (13 :: 10 :: r)) := by
        simp [Part.head]
      have k10 : (10 : UInt8) ∉ kindMark := by decide
      have k0 : (0 : UInt8) ∉ kindMark := by decide
      rw [e, first, heads, readline_eq _ (by simp [k10, hk10])]
      have hc : cstr (kindMark ++ kd ++ [13] ++ [10]) = kindMark ++ (kd ++ [13, 10]) := by
        rw [cstr_id (by simp [k0, hk0])]
        simp
      obtain ⟨x, u, hs⟩ := scanheader_kind (kd ++ [13, 10])
      simp only
      rw [hc, hs]
      simp only
      have : (samecase [67, 111, 110, 116, 101, 110, 116, 45, 84, 121, 112, 101] sDisposition) = false := by decide
      rw [this, Bool.false_and, if_neg (by decide), heads_blank]
      rfl

theorem lead_boundary {b : Text} (hb : Boundary b) : Lead ([13, 10, 45, 45] ++ b) := by
  refine ⟨by simp, fun k hk hl => ?_⟩
  match k, hk with
  | 1, _ => simp
  | 2, _ => simp
  | 3, _ => simp
  | k + 4, _ =>
    intro h
    have h' : b[k]? = some 13 := by simpa using h
    exact (hb 13 (List.mem_of_getElem? h')).2.2.2.2.2.1 rfl

theorem ascii_boundary {b : Text} (hb : Boundary b) : ∀ c ∈ [13, 10, 45, 45] ++ b, c.toNat < 128 := by
  intro c hc
  rcases List.mem_append.1 hc with hc | hc
  · simp only [List.mem_cons, List.not_mem_nil, or_false] at hc
    rcases hc with rfl | rfl | rfl | rfl <;> decide
  · exact (hb c hc).1

theorem copy_part {b : Text} (hb : Boundary b) {p : Part} (h : p.Ok b) (r : Text) :
    copyLoop ([13, 10, 45, 45] ++ b) (p.contents ++ ([13, 10, 45, 45] ++ b) ++ r) 0 [] = (p.contents, r) := by
  have := copy_first (ascii_boundary hb) (lead_boundary hb) _ 0 [] p.contents r (by simp)
    (by simpa using first_of_no r (lead_boundary hb) h.2.1)
  simpa using this

/-- What a part adds to what has been read. -/
theorem keep_part {b : Text} {p : Part} (h : p.Ok b) {tmp : Temp} {here : Nat → Text} (ht : ∀ i, tmp i = some (here i))
    (g : Got) :
    keepPart tmp p.name (fileOf p) p.contents g =
      ⟨addAll g.vars (said here g.calls [p]), g.files ++ uploads here g.calls [p],
        g.calls + made p⟩ := by
  cases p with
  | value n v =>
    have h0 : (0 : UInt8) ∉ v := h.2.2
    simp [keepPart, fileOf, Part.contents, cstr_id h0, said, uploads, addAll, Part.name, made]
  | file n f k c =>
    by_cases hf : f = []
    · simp [keepPart, fileOf, hf, said, uploads, addAll, made]
    · simp [keepPart, fileOf, Part.contents, ht, hf, said, uploads, addAll, Part.name, made]

theorem said_cons (here : Nat → Text) (i : Nat) (p : Part) (ps : List Part) :
    said here i (p :: ps) = said here i [p] ++ said here (i + made p) ps := by
  cases p with
  | value n v => simp [said, made]
  | file n f k c => by_cases hf : f = [] <;> simp [said, made, hf]

theorem uploads_cons (here : Nat → Text) (i : Nat) (p : Part) (ps : List Part) :
    uploads here i (p :: ps) = uploads here i [p] ++ uploads here (i + made p) ps := by
  cases p with
  | value n v => simp [uploads, made]
  | file n f k c => by_cases hf : f = [] <;> simp [uploads, made, hf]

theorem head_long (st : Style) (p : Part) : 3 ≤ (p.head st).length := by
  cases p with
  | value n v => simp [Part.head]; omega
  | file n f k c => simp [Part.head]; omega

theorem parts_form (hs : st.Ok) {b : Text} (hb : Boundary b) {tmp : Temp} {here : Nat → Text} (ht : ∀ i, tmp i = some (here i)) :
    ∀ (ps : List Part) (n : Nat) (g : Got), (∀ p ∈ ps, p.Ok b) → (partsText st b ps).length < n →
      ∃ k, parts tmp ([13, 10, 45, 45] ++ b) n (partsText st b ps) g =
        .ok ⟨addAll g.vars (said here g.calls ps), g.files ++ uploads here g.calls ps, k⟩
  | _, 0, _, _, h => by omega
  | [], n + 1, g, _, _ => ⟨g.calls, by
    cases g
    simp [partsText, parts, heads, readline, bind_ok, said, uploads, addAll]⟩
  | [p], n + 1, g, hp, _ => by
    have hp := hp p (by simp)
    have e : partsText st b [p] = p.head st ++ ((p.contents ++ ([13, 10, 45, 45] ++ b)) ++ [45, 45, 13, 10]) := by
      simp [partsText]
    have hl := head_long st p
    refine ⟨g.calls + made p, ?_⟩
    rw [e, parts]
    generalize hlen : (p.head st ++ ((p.contents ++ ([13, 10, 45, 45] ++ b)) ++ [45, 45, 13, 10])).length = len
    obtain ⟨m, rfl⟩ : ∃ m, len = m + 2 := ⟨len - 2, by simp at hlen; omega⟩
    rw [heads_part hs hp m, bind_ok]
    simp only
    rw [if_pos (by decide), copy_part hb hp, show ([45, 45, 13, 10] : Text) = [45, 45, 13] ++ 10 :: [] from rfl,
      readline_eq _ (by decide)]
    simp only
    rw [if_pos (by decide), keep_part hp ht]
  | p :: p' :: ps, n + 1, g, hps, hn => by
    have hp := hps p (by simp)
    have e : partsText st b (p :: p' :: ps) =
        p.head st ++ ((p.contents ++ ([13, 10, 45, 45] ++ b)) ++ (13 :: 10 :: partsText st b (p' :: ps))) := by
      simp [partsText]
    have hl := head_long st p
    rw [e] at hn
    rw [e, parts]
    generalize hlen : (p.head st ++ ((p.contents ++ ([13, 10, 45, 45] ++ b)) ++ (13 :: 10 :: partsText st b (p' :: ps)))).length = len at *
    obtain ⟨m, rfl⟩ : ∃ m, len = m + 2 := ⟨len - 2, by simp at hlen; omega⟩
    rw [heads_part hs hp m, bind_ok]
    simp only
    rw [if_pos (by decide), copy_part hb hp, show (13 : UInt8) :: 10 :: partsText st b (p' :: ps) = [13] ++ 10 :: partsText st b (p' :: ps) from rfl,
      readline_eq _ (by decide)]
    simp only
    rw [if_neg (by decide)]
    obtain ⟨k, hk⟩ := parts_form hs hb ht (p' :: ps) n (keepPart tmp p.name (fileOf p) p.contents g)
      (fun q hq => hps q (by simp [hq])) (by simp at hlen; omega)
    refine ⟨k, ?_⟩
    rw [hk, keep_part hp ht, said_cons here _ p (p' :: ps), uploads_cons here _ p (p' :: ps)]
    simp [addAll_append]

theorem formKind_take (hs : st.Ok) {b : Text} (hb : Boundary b) :
    samecase ((cstr (formKind st b)).take 20) sMultipart = true ∧
      scanattr ((cstr (formKind st b)).drop 20) = some (st.boundary, b, []) := by
  have hm := hs.2.2.2.2.1
  have hbd := hs.2.2.2.2.2
  have h0 : (0 : UInt8) ∉ formKind st b := by
    have h1 := cased_not hm (x := 0) (by decide) (by decide)
    have h2 := cased_not hbd (x := 0) (by decide) (by decide)
    have h3 : (0 : UInt8) ∉ b := fun h => (hb 0 h).2.1 rfl
    simp [formKind, h1, h2, h3]
  have hl : st.multipart.length = 19 := cased_length hm
  have e : formKind st b = (st.multipart ++ [59]) ++ 32 :: (st.boundary ++ 61 :: b) := by simp [formKind]
  have hl' : 20 = (st.multipart ++ [59]).length := by simp [hl]
  rw [cstr_id h0, e, hl', List.take_left, List.drop_left]
  refine ⟨cased_same ?_, ?_⟩
  · have : sMultipart = usual.multipart ++ [59] := rfl
    rw [this]
    unfold Cased at *
    rw [List.map_append, List.map_append, hm]
  have hn := cased_ne hbd (by decide)
  have hx := cased_head hbd (x := 32) (by decide) (by decide) [] hn
  have hy := cased_head hbd (x := 9) (by decide) (by decide) [] hn
  rw [List.append_nil] at hx hy
  rw [scanattr_blank, scanattr_eq _ hn (cased_not hbd (by decide) (by decide)) ⟨hx, hy⟩]
  have := scanvalue_plain (x := b) (r := []) (fun c hc => by
    have := hb c hc
    simp [stops, this.2.2.1, this.2.2.2.1, this.2.2.2.2.1, this.2.2.2.2.2.1, this.2.2.2.2.2.2.1]) (by
    refine ⟨?_, ?_, ?_⟩ <;> intro h <;> have := hb _ (List.mem_of_mem_head? h) <;> simp at this) (.inl rfl)
  rw [List.append_nil] at this
  rw [this]
  rfl

theorem readMultipart_form (hs : st.Ok) {b : Text} (hb : Boundary b) {tmp : Temp} {here : Nat → Text} (ht : ∀ i, tmp i = some (here i))
    {ps : List Part} (hp : ∀ p ∈ ps, p.Ok b) :
    ∃ k, readMultipart tmp (some (formKind st b)) (form st b ps) = .ok ⟨addAll [] (said here 0 ps), uploads here 0 ps, k⟩ := by
  obtain ⟨h1, h2⟩ := formKind_take hs hb
  have hb10 : (10 : UInt8) ∉ b := fun h => (hb 10 h).2.2.2.2.2.2.1 rfl
  have hb0 : (0 : UInt8) ∉ b := fun h => (hb 0 h).2.1 rfl
  have e : form st b ps = ([45, 45] ++ b ++ [13]) ++ 10 :: partsText st b ps := by simp [form]
  obtain ⟨k, hk⟩ := parts_form hs hb ht ps ((form st b ps).length + 1) ⟨[], [], 0⟩ hp (by rw [e]; simp; omega)
  refine ⟨k, ?_⟩
  unfold readMultipart
  have h3 : samecase st.boundary sBoundary = true := cased_same hs.2.2.2.2.2
  simp only [h1, h2, h3]
  rw [if_neg (by decide), if_neg (by decide)]
  have hr : readline (form st b ps) = some ([45, 45] ++ b ++ [13] ++ [10], partsText st b ps) := by
    rw [e, readline_eq _ (by simp [hb10])]
  rw [hr]
  simp only
  have hc : cstr ([45, 45] ++ b ++ [13] ++ [10]) = ([45, 45] ++ b) ++ [13, 10] := by
    rw [cstr_id (by simp [hb0])]
    simp
  have hlen : ([13, 10, 45, 45] ++ b).length - 2 = ([45, 45] ++ b).length := by simp
  rw [hc, hlen, List.take_left, show ([45, 45] ++ b ++ [13] ++ [10] : Text) = ([45, 45] ++ b) ++ [13, 10] by simp,
    List.drop_left, if_pos ⟨rfl, rfl⟩, hk]
  simp

/-! ## The length of a post -/

theorem number_digits : ∀ (l : Text) (a : Nat), Spec.Req.Digits l →
    number a l = l.foldl (fun a c => a * 10 + (c.toNat - 48)) a
  | [], _, _ => rfl
  | c :: r, a, h => by
    have hc := h c (by simp)
    rw [number, if_pos (by simp only [UInt8.le_iff_toNat_le, UInt8.reduceToNat]; exact hc), List.foldl_cons]
    exact number_digits r _ (fun c hc => h c (by simp [hc]))

theorem atoi_digits {l : Text} (h : Spec.Req.Digits l) (hl : Spec.Req.amount l ≤ 2147483647) :
    atoi (cstr l) = .ok (Spec.Req.amount l : Int) := by
  have h0 : (0 : UInt8) ∉ l := fun h0 => by have := h 0 h0; simp at this
  rw [cstr_id h0]
  have hsp : l.dropWhile Txt.isspace = l := by
    cases l with
    | nil => rfl
    | cons c r =>
      have := h c (by simp)
      rw [List.dropWhile_cons, if_neg]
      intro hs
      simp [Txt.isspace] at hs
      rcases hs with rfl | hs
      · simp at this
      · simp only [UInt8.le_iff_toNat_le, UInt8.reduceToNat] at hs
        omega
  unfold atoi
  simp only [hsp]
  have hi : InInt (Spec.Req.amount l : Int) := by unfold InInt; omega
  cases l with
  | nil => rfl
  | cons c r =>
    have hc := h c (by simp)
    have h45 : c ≠ 45 := by rintro rfl; simp at hc
    have h43 : c ≠ 43 := by rintro rfl; simp at hc
    simp only [if_neg h45, if_neg h43, number_digits _ _ h]
    exact if_pos hi

end Verif.Lemmas.Req
