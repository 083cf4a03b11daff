import Verif.Model.Text
import Verif.Spec.Text
import Verif.Lemmas.Seq

/-! Helper lemmas for `Props/Text`. -/

namespace Verif.Model.Txt
open Verif.Spec (encodeNat encodeChar encode)

/-! ### UTF-8 -/

theorem mask_240 : ∀ n < 256, (n &&& 240 = 240) = (240 ≤ n) := by
  have h : ∀ n < 256, decide (n &&& 240 = 240) = decide (240 ≤ n) := by decide +kernel
  intro n hn; have := h n hn; simpa using this

theorem mask_224 : ∀ n < 256, (n &&& 224 = 224) = (224 ≤ n) := by
  have h : ∀ n < 256, decide (n &&& 224 = 224) = decide (224 ≤ n) := by decide +kernel
  intro n hn; have := h n hn; simpa using this

theorem mask_192 : ∀ n < 256, (n &&& 192 = 192) = (192 ≤ n) := by
  have h : ∀ n < 256, decide (n &&& 192 = 192) = decide (192 ≤ n) := by decide +kernel
  intro n hn; have := h n hn; simpa using this

theorem utf8size_eq (c : UInt8) : utf8size c =
    if 240 ≤ c.toNat then 4 else if 224 ≤ c.toNat then 3 else if 192 ≤ c.toNat then 2 else 1 := by
  have hc := c.toNat_lt
  simp only [utf8size, mask_240 _ hc, mask_224 _ hc, mask_192 _ hc]

theorem utf8size_pos (c : UInt8) : 0 < utf8size c := by
  rw [utf8size_eq]; (repeat' split) <;> omega

theorem toNat_ofNat (n : Nat) (h : n < 256) : (UInt8.ofNat n).toNat = n := by
  simp [Nat.mod_eq_of_lt h]

/-- A continuation byte. -/
def Cont (b : UInt8) : Prop := 128 ≤ b.toNat ∧ b.toNat < 192

theorem char_lt (c : Char) : c.toNat < 1114112 := by
  have := c.valid
  simp only [UInt32.isValidChar, Nat.isValidChar] at this
  show c.val.toNat < _
  omega

/-- Shape of an encoded character: a first byte that announces the length, then continuation bytes. -/
theorem encodeChar_shape (c : Char) : ∃ b bs, encodeChar c = b :: bs ∧ ¬ Cont b ∧
    utf8size b = bs.length + 1 ∧ (∀ x ∈ bs, Cont x) := by
  have hc := char_lt c
  simp only [encodeChar, encodeNat]
  repeat' split
  · refine ⟨_, _, rfl, ?_, ?_, by simp⟩
    · simp only [Cont]; rw [toNat_ofNat _ (by omega)]; omega
    · rw [utf8size_eq, toNat_ofNat _ (by omega)]; simp only [List.length_nil]; (repeat' split) <;> omega
  · refine ⟨_, _, rfl, ?_, ?_, ?_⟩
    · simp only [Cont]; rw [toNat_ofNat _ (by omega)]; omega
    · rw [utf8size_eq, toNat_ofNat _ (by omega)]; simp only [List.length_cons, List.length_nil]; (repeat' split) <;> omega
    · simp only [List.mem_cons, List.not_mem_nil, or_false, forall_eq, Cont]
      rw [toNat_ofNat _ (by omega)]; omega
  · refine ⟨_, _, rfl, ?_, ?_, ?_⟩
    · simp only [Cont]; rw [toNat_ofNat _ (by omega)]; omega
    · rw [utf8size_eq, toNat_ofNat _ (by omega)]; simp only [List.length_cons, List.length_nil]; (repeat' split) <;> omega
    · simp only [List.mem_cons, List.not_mem_nil, or_false, forall_eq_or_imp, forall_eq, Cont]
      rw [toNat_ofNat _ (by omega), toNat_ofNat _ (by omega)]; omega
  · refine ⟨_, _, rfl, ?_, ?_, ?_⟩
    · simp only [Cont]; rw [toNat_ofNat _ (by omega)]; omega
    · rw [utf8size_eq, toNat_ofNat _ (by omega)]; simp only [List.length_cons, List.length_nil]; (repeat' split) <;> omega
    · simp only [List.mem_cons, List.not_mem_nil, or_false, forall_eq_or_imp, forall_eq, Cont]
      rw [toNat_ofNat _ (by omega), toNat_ofNat _ (by omega), toNat_ofNat _ (by omega)]; omega

theorem utf8size_cont {b : UInt8} (h : Cont b) : utf8size b = 1 := by
  rw [utf8size_eq]; unfold Cont at h; (repeat' split) <;> omega

theorem encode_cons (c : Char) (cs : List Char) : encode (c :: cs) = encodeChar c ++ encode cs := rfl

theorem encode_nil : encode [] = [] := rfl

theorem encode_append (a b : List Char) : encode (a ++ b) = encode a ++ encode b := by
  simp [encode]

theorem encodeChar_pos (c : Char) : 0 < (encodeChar c).length := by
  obtain ⟨b, bs, e, -⟩ := encodeChar_shape c; simp [e]

theorem length_le_encode (cs : List Char) : cs.length ≤ (encode cs).length := by
  induction cs with
  | nil => simp
  | cons c cs ih =>
    have := encodeChar_pos c
    simp [encode_cons]; omega

theorem encode_eq_nil {cs : List Char} : encode cs = [] ↔ cs = [] := by
  constructor
  · intro h
    have := length_le_encode cs
    rw [h] at this; exact List.length_eq_zero_iff.mp (by simpa using this)
  · rintro rfl; rfl

theorem extraBytes_append (a b : Text) : extraBytes (a ++ b) = extraBytes a + extraBytes b := by
  induction a with
  | nil => simp [extraBytes]
  | cons c a ih => simp [extraBytes, ih]; omega

theorem extraBytes_cont {a : Text} (h : ∀ x ∈ a, Cont x) : extraBytes a = 0 := by
  induction a with
  | nil => rfl
  | cons c a ih =>
    simp [extraBytes, ih (fun x hx => h x (by simp [hx])), utf8size_cont (h c (by simp))]

theorem extraBytes_encodeChar (c : Char) : extraBytes (encodeChar c) + 1 = (encodeChar c).length := by
  obtain ⟨b, bs, e, -, hs, hb⟩ := encodeChar_shape c
  rw [e]; simp [extraBytes, extraBytes_cont hb, hs]

theorem extraBytes_encode (cs : List Char) : extraBytes (encode cs) + cs.length = (encode cs).length := by
  induction cs with
  | nil => rfl
  | cons c cs ih =>
    have := extraBytes_encodeChar c
    simp [encode_cons, extraBytes_append]; omega

/-- Size of a text that fits in memory. -/
theorem getutf8len_encode (cs : List Char) (rest : Text) (hm : (encode cs).length < 18446744073709551616) :
    getutf8len (encode cs ++ rest) (encode cs).length = .ok cs.length := by
  have h := extraBytes_encode cs
  unfold getutf8len
  rw [if_pos (by simp)]
  simp only [List.take_left']
  congr 1
  rw [show (((encode cs).length : Int) - extraBytes (encode cs)) = (cs.length : Int) by omega]
  omega

/-- Walking over whole characters. -/
theorem getBytes_encode (pre : Text) (cs : List Char) (rest : Text) :
    getBytes (pre ++ (encode cs ++ rest)) pre.length cs.length = .ok (encode cs).length := by
  induction cs generalizing pre with
  | nil => rfl
  | cons c cs ih =>
    obtain ⟨b, bs, e, -, hs, hb⟩ := encodeChar_shape c
    have h1 : (pre ++ (encode (c :: cs) ++ rest))[pre.length]? = some b := by
      simp [encode_cons, e]
    have h2 := ih (pre ++ encodeChar c)
    have h3 : (pre ++ encodeChar c).length = pre.length + utf8size b := by simp [e, hs]
    rw [h3] at h2
    simp only [List.length_cons, getBytes, h1]
    rw [show pre ++ (encode (c :: cs) ++ rest) = pre ++ encodeChar c ++ (encode cs ++ rest) by
      simp [encode_cons], h2]
    simp [encode_cons, e, hs]; omega

/-- Walking beyond the last character reads outside the text. -/
theorem getBytes_encode_over (pre : Text) (cs : List Char) (n : Nat) (hn : cs.length < n) :
    getBytes (pre ++ encode cs) pre.length n = .ub := by
  induction cs generalizing pre n with
  | nil =>
    match n, hn with
    | n + 1, _ => simp [getBytes, encode_nil]
  | cons c cs ih =>
    match n, hn with
    | n + 1, hn =>
      obtain ⟨b, bs, e, -, hs, hb⟩ := encodeChar_shape c
      have h1 : (pre ++ encode (c :: cs))[pre.length]? = some b := by simp [encode_cons, e]
      have h2 := ih (pre ++ encodeChar c) n (by simpa using hn)
      rw [show (pre ++ encodeChar c).length = pre.length + utf8size b by simp [e, hs]] at h2
      simp only [getBytes, h1]
      rw [show pre ++ encode (c :: cs) = pre ++ encodeChar c ++ encode cs by simp [encode_cons], h2]
      rfl

theorem slice_mid (a b c : Text) : slice (a ++ (b ++ c)) a.length b.length = .ok b := by
  unfold slice; rw [if_pos (by simp)]; simp

theorem getBytes_drop (cs : List Char) (n : Nat) (hn : n ≤ cs.length) :
    getBytes (encode cs) 0 n = .ok (encode (cs.take n)).length := by
  have := getBytes_encode [] (cs.take n) (encode (cs.drop n))
  rw [← encode_append, List.take_append_drop, List.length_take, Nat.min_eq_left hn] at this
  simpa using this

theorem getBytes_from (cs : List Char) (k n : Nat) (hn : k + n ≤ cs.length) :
    getBytes (encode cs) (encode (cs.take k)).length n = .ok (encode ((cs.drop k).take n)).length := by
  have := getBytes_encode (encode (cs.take k)) ((cs.drop k).take n) (encode ((cs.drop k).drop n))
  rw [← encode_append, List.take_append_drop, ← encode_append, List.take_append_drop,
    List.length_take, List.length_drop, Nat.min_eq_left (by omega)] at this
  exact this

theorem getBytes_from_over (cs : List Char) (k n : Nat) (hk : k ≤ cs.length) (hn : cs.length < k + n) :
    getBytes (encode cs) (encode (cs.take k)).length n = .ub := by
  have := getBytes_encode_over (encode (cs.take k)) (cs.drop k) n (by simp; omega)
  rwa [← encode_append, List.take_append_drop] at this

theorem getBytes_over (cs : List Char) (n : Nat) (hn : cs.length < n) :
    getBytes (encode cs) 0 n = .ub := by
  simpa using getBytes_encode_over [] cs n hn

theorem slice_encode (cs : List Char) (k n : Nat) :
    slice (encode cs) (encode (cs.take k)).length (encode ((cs.drop k).take n)).length =
      .ok (encode ((cs.drop k).take n)) := by
  have := slice_mid (encode (cs.take k)) (encode ((cs.drop k).take n)) (encode ((cs.drop k).drop n))
  rwa [← encode_append, List.take_append_drop, ← encode_append, List.take_append_drop] at this

/-- `fromLength` on a valid text: the walk over `start + count` characters, both clamped by the number of
bytes, is defined exactly if the text has that many characters. -/
theorem fromLength_encode (cs : List Char) (a n : Int) (h0 : n ≠ 0) (hne : cs ≠ []) :
    ∃ st ct : Nat, st = min (if n < 0 then a - 1 + n else a - 1).toNat (encode cs).length ∧
      ct = min n.natAbs ((encode cs).length - st) ∧
      fromLength (encode cs) a n =
        if st + ct ≤ cs.length then .ok (encode ((cs.drop st).take ct)) else .ub := by
  have hl : (encode cs).length ≠ 0 := by
    intro h; exact hne (encode_eq_nil.mp (List.length_eq_zero_iff.mp h))
  refine ⟨_, _, rfl, rfl, ?_⟩
  generalize hst : min (if n < 0 then a - 1 + n else a - 1).toNat (encode cs).length = st
  generalize hct : min n.natAbs ((encode cs).length - st) = ct
  unfold fromLength
  simp only
  rw [if_neg (by omega)]
  generalize ha1 : (if n < 0 then a - 1 + n else a - 1) = a1 at *
  generalize hb1 : (if n < 0 then -n else n) = b1
  generalize ha2 : (if a1 < 0 then 0 else a1) = a2
  generalize ha3 : (if a2 > ((encode cs).length : Int) then ((encode cs).length : Int) else a2) = a3
  generalize hb2 : (if a3 + b1 > ((encode cs).length : Int) then ((encode cs).length : Int) - a3 else b1) = b2
  have h3 : a3.toNat = st := by
    subst ha3 ha2 hst; repeat' split <;> omega
  have h30 : 0 ≤ a3 ∧ a3 ≤ (encode cs).length := by subst ha3 ha2; repeat' split <;> omega
  have h4 : b2.toNat = ct := by
    have : b1 = n.natAbs := by subst hb1; split <;> omega
    subst hb2 hct; split <;> omega
  rw [h3, h4]
  by_cases hs : st ≤ cs.length
  · rw [getBytes_drop _ _ hs]
    simp only [Out.ok_bind]
    by_cases hc : st + ct ≤ cs.length
    · rw [getBytes_from _ _ _ hc, if_pos hc]
      simp only [Out.ok_bind]
      split
      · rename_i hz
        rw [List.length_eq_zero_iff.mp hz]
      · exact slice_encode ..
    · rw [getBytes_from_over _ _ _ hs (by omega), if_neg hc]; rfl
  · rw [getBytes_over _ _ (by omega), if_neg (by omega)]; rfl

theorem charsLoop_rep (pre : Text) (cs : List Char) (fuel : Nat) (hf : cs.length < fuel)
    {arr : Seq (Option Text)} {l : List (Option Text)} (hr : arr.Rep [] l) :
    ∃ arr', charsLoop (pre ++ encode cs) fuel pre.length arr = .ok arr' ∧
      arr'.Rep [] (l ++ cs.map (fun c => some (encodeChar c))) := by
  induction cs generalizing pre fuel arr l with
  | nil =>
    match fuel, hf with
    | fuel + 1, _ => exact ⟨arr, by simp [charsLoop, encode_nil], by simpa using hr⟩
  | cons c cs ih =>
    match fuel, hf with
    | fuel + 1, hf =>
      obtain ⟨b, bs, e, -, hs, hb⟩ := encodeChar_shape c
      have h1 : (pre ++ encode (c :: cs))[pre.length]? = some b := by simp [encode_cons, e]
      have h4 := slice_mid pre (encodeChar c) (encode cs)
      rw [show (encodeChar c).length = utf8size b by simp [e, hs]] at h4
      obtain ⟨a1, e1, r1⟩ := Seq.push_rep hr (some (encodeChar c))
      obtain ⟨a2, e2, r2⟩ := ih (pre ++ encodeChar c) fuel (by simpa using hf) r1
      refine ⟨a2, ?_, by simpa using r2⟩
      rw [show (pre ++ encodeChar c).length = pre.length + utf8size b by simp [e, hs]] at e2
      simp only [charsLoop, h1]
      simp only [encode_cons, h4, Out.ok_bind, e1]
      rw [← e2]; simp

theorem characters_rep (cs : List Char) :
    ∃ arr, characters (encode cs) = .ok arr ∧ arr.Rep [] (cs.map (fun c => some (encodeChar c))) := by
  have := charsLoop_rep [] cs ((encode cs).length + 1) (by have := length_le_encode cs; omega)
    (Seq.rep_new)
  simpa [characters] using this

theorem joinLoop_rep {arr : Seq α} {pre l : List α} (hr : arr.Rep pre l) (str : α → Text) (g : Text)
    (done rest : List α) (hl : l = done ++ rest) (acc : Text)
    (hacc : acc = Spec.intercalate g (done.map str)) :
    joinLoop arr str g (pre.length + done.length) acc rest.length =
      .ok (Spec.intercalate g (l.map str)) := by
  have hint : ∀ (xs : List Text) (x y : Text), Spec.intercalate g (x :: xs ++ [y]) =
      Spec.intercalate g (x :: xs) ++ g ++ y := by
    intro xs
    induction xs with
    | nil => intro x y; simp [Spec.intercalate]
    | cons z xs ih =>
      intro x y
      have := ih z y
      simp only [List.cons_append] at this ⊢
      simp [Spec.intercalate, this]
  induction rest generalizing done acc with
  | nil => simp [joinLoop, hl, hacc]
  | cons o rest ih =>
    have hread : arr.read (pre.length + done.length) = .ok o := by
      have := Seq.read_elem hr (i := done.length) (by simp [hl])
      simpa [hl] using this
    simp only [List.length_cons, joinLoop, hread, Out.ok_bind]
    rw [Nat.add_assoc, show done.length + 1 = (done ++ [o]).length by simp]
    apply ih (done ++ [o]) (by simp [hl])
    rw [hr.tail_eq]
    cases done with
    | nil => simp [Spec.intercalate]
    | cons x xs =>
      rw [if_neg (by simp)]
      have := hint (xs.map str) (str x) (str o)
      simp only [List.map_append, List.map_cons, List.map_nil, List.cons_append] at this ⊢
      rw [this, hacc]; rfl

theorem join_rep {arr : Seq α} {pre l : List α} (hr : arr.Rep pre l) (str : α → Text) (g : Text) :
    join arr str g = .ok (Spec.intercalate g (l.map str)) := by
  have := joinLoop_rep hr str g [] l rfl [] rfl
  unfold join
  rw [hr.tail_eq, hr.head_eq]
  simpa using this

end Verif.Model.Txt
