import Verif.Lemmas.TransScan

/-!
# Lemmas about translating programs: looking ahead over whole arguments, and gathering the name of a message
-/

namespace Verif.Lemmas.TransProg
open Verif.Model Verif.Model.TransProg
open Verif.Model.Trans (maxWord)
open Verif.Model.Lexer (isDigit digitAt digitAt_starts pfx_false pfx_iff isDigit_eq startsNone_mem isSpace_eq apart_pfx
  pfx_self)
open Verif.Spec (Dict Node)
open Verif.Spec.Lexer Verif.Spec.Parser
open Verif.Spec.Retell

/-! ## Pieces in sequence -/

theorem source_append (a b : List Piece) (rest : Text) : source (a ++ b) rest = source a (source b rest) := by
  induction a with
  | nil => rfl
  | cons p a ih => show _ ++ source (a ++ b) rest = _ ++ source a _; rw [ih]

theorem target_append (a b : List Piece) (rest : Text) : target (a ++ b) rest = target a (target b rest) := by
  induction a with
  | nil => rfl
  | cons p a ih => show _ ++ target (a ++ b) rest = _ ++ target a _; rw [ih]

theorem target_nil (a : List Piece) (rest : Text) : target a rest = target a [] ++ rest := by
  induction a with
  | nil => rfl
  | cons p a ih =>
    show _ ++ target a rest = _ ++ target a [] ++ rest
    rw [ih]; simp

theorem laid_append {d d' : Dict} {W : Say} (a b : List Piece) (rest : Text) :
    Laid d d' W (a ++ b) rest ↔ Laid d d' W a (source b rest) ∧ Laid d d' W b rest := by
  induction a with
  | nil => exact ⟨fun h => ⟨trivial, h⟩, fun h => h.2⟩
  | cons p a ih =>
    show (_ ∧ Written d _ _ (source (a ++ b) rest) ∧ Regular d _ _ _ (source (a ++ b) rest) ∧ _ ∧ Laid d d' W (a ++ b) rest) ↔
      (_ ∧ Written d _ _ (source a (source b rest)) ∧ _ ∧ _ ∧ Laid d d' W a (source b rest)) ∧ _
    rw [ih, source_append]
    constructor
    · rintro ⟨h1, h2, h3, h4, h5, h6⟩; exact ⟨⟨h1, h2, h3, h4, h5⟩, h6⟩
    · rintro ⟨⟨h1, h2, h3, h4, h5⟩, h6⟩; exact ⟨h1, h2, h3, h4, h5, h6⟩

theorem map_split {seg : List Piece} {A B : List Cell} (h : seg.map Piece.cell = A ++ B) :
    ∃ a b, seg = a ++ b ∧ a.map Piece.cell = A ∧ b.map Piece.cell = B := by
  obtain ⟨a, b, h1, h2, h3⟩ := List.map_eq_append_iff.1 h
  exact ⟨a, b, h1, h2, h3⟩

theorem map_one {seg : List Piece} {c : Cell} {B : List Cell} (h : seg.map Piece.cell = c :: B) :
    ∃ p b, seg = p :: b ∧ p.cell = c ∧ b.map Piece.cell = B := by
  cases seg with
  | nil => cases h
  | cons p b =>
    injection h with h1 h2
    exact ⟨p, b, rfl, h1, h2⟩

theorem written_ne {d : Dict} (hd : GoodDict d) {l : Lexeme} {b rest : Text} (h : Written d l b rest) : b ≠ [] := by
  obtain ⟨u1, u2, u3, u4, u5, u6⟩ := hd.1
  cases l with
  | word w => obtain ⟨rfl, h⟩ := h; exact h.1
  | num v =>
    obtain ⟨sign, gs, f, rfl, _, _, h1, h2, _⟩ := h
    cases gs with
    | nil => exact absurd rfl h1
    | cons g gs =>
      have hg := (h2 g List.mem_cons_self).1
      intro e
      have e1 := (List.append_eq_nil_iff.1 (List.append_eq_nil_iff.1 e).1).2
      cases gs with
      | nil => rw [List.intercalate_singleton] at e1; exact hg e1
      | cons g2 gs =>
        rw [List.intercalate_cons_cons] at e1
        exact hg (List.append_eq_nil_iff.1 (List.append_eq_nil_iff.1 e1).1).1
  | lit t =>
    obtain ⟨rfl, _⟩ := h
    intro e
    exact u5 (List.append_eq_nil_iff.1 (List.append_eq_nil_iff.1 e).1).1
  | popen => rw [show b = [40] from h]; simp
  | pclose => rw [show b = [41] from h]; simp
  | bopen => rw [show b = [123] from h]; simp
  | bclose => rw [show b = [125] from h]; simp
  | eol => rw [show b = d.eol from h]; exact u1
  | chain => rw [show b = d.chain from h]; exact u2
  | assign =>
    rcases h with h | h <;> rw [h]
    · intro e; rw [e] at u3; simp at u3
    · simp
  | colon => rw [h.1]; simp
  | ret => rw [h.1]; exact u4

/-! ## Passing over trees -/

section
variable {d d' : Dict} {W : Say}

/-- Looking ahead passes over these pieces: everywhere, or (with the flag) inside parentheses and blocks. -/
def Pass (d d' : Dict) (W : Say) (deep : Bool) (cs : List Cell) : Prop :=
  ∀ n b, (deep = true → 0 < n ∨ 0 < b) → ∀ seg rest, seg.map Piece.cell = cs → Laid d d' W seg rest →
    F d n b (source seg rest) = F d n b rest

theorem Pass.nil {deep : Bool} : Pass d d' W deep [] := by
  intro n b _ seg rest h _
  cases seg with
  | nil => rfl
  | cons p s => cases h

theorem Pass.append {deep : Bool} {A B : List Cell} (ha : Pass d d' W deep A) (hb : Pass d d' W deep B) :
    Pass d d' W deep (A ++ B) := by
  intro n b hn seg rest h hl
  obtain ⟨sa, sb, rfl, h1, h2⟩ := map_split h
  obtain ⟨l1, l2⟩ := (laid_append sa sb rest).1 hl
  rw [source_append, ha n b hn sa _ h1 l1, hb n b hn sb _ h2 l2]

theorem Pass.weaken {deep : Bool} {A : List Cell} (h : Pass d d' W false A) : Pass d d' W deep A :=
  fun n b _ => h n b (by intro h; cases h)

theorem Pass.light (hd : GoodDict d) {c : Cell} (hc : Light c) {deep : Bool} : Pass d d' W deep [c] := by
  intro n b _ seg rest h hl
  obtain ⟨p, s, rfl, h1, h2⟩ := map_one h
  obtain rfl := List.map_eq_nil_iff.1 h2
  obtain ⟨a1, a2, a3, _, _⟩ := hl
  subst h1
  exact F_light hd hc a1 a2 a3

theorem Pass.heavy (hd : GoodDict d) (hk : CalmDict d) {c : Cell} (hc : Heavy c) : Pass d d' W true [c] := by
  intro n b hn seg rest h hl
  obtain ⟨p, s, rfl, h1, h2⟩ := map_one h
  obtain rfl := List.map_eq_nil_iff.1 h2
  obtain ⟨a1, a2, a3, _, _⟩ := hl
  subst h1
  exact F_heavy hd hk (hn rfl) hc a1 a2 a3

theorem Pass.cons {deep : Bool} {c : Cell} {A : List Cell} (hc : Pass d d' W deep [c]) (h : Pass d d' W deep A) :
    Pass d d' W deep (c :: A) := Pass.append hc h

theorem Pass.paren (hd : GoodDict d) {A : List Cell} (h : Pass d d' W true A) {deep : Bool} :
    Pass d d' W deep (.popen :: A ++ [.pclose]) := by
  intro n b _ seg rest hs hl
  obtain ⟨p, s, rfl, h1, h2⟩ := map_one hs
  obtain ⟨sa, sb, rfl, h3, h4⟩ := map_split h2
  obtain ⟨z, s2, rfl, h5, h6⟩ := map_one h4
  obtain rfl := List.map_eq_nil_iff.1 h6
  obtain ⟨a1, a2, _, _, hl⟩ := hl
  obtain ⟨l1, b1, b2, _, _, _⟩ := (laid_append sa [z] rest).1 hl
  rw [h1] at a2
  rw [h5] at b2
  show F d n b (p.gap ++ p.bytes ++ source (sa ++ [z]) rest) = _
  rw [show p.bytes = [40] from a2, List.append_assoc, F_gap hd a1, List.singleton_append, F_popen, source_append,
    h (n + 1) b (fun _ => .inl (by omega)) sa _ h3 l1]
  show F d (n + 1) b (z.gap ++ z.bytes ++ rest) = _
  rw [show z.bytes = [41] from b2, List.append_assoc, F_gap hd b1, List.singleton_append, F_pclose]

theorem Pass.block (hd : GoodDict d) {A : List Cell} (h : Pass d d' W true A) {deep : Bool} :
    Pass d d' W deep (.bopen :: A ++ [.bclose]) := by
  intro n b _ seg rest hs hl
  obtain ⟨p, s, rfl, h1, h2⟩ := map_one hs
  obtain ⟨sa, sb, rfl, h3, h4⟩ := map_split h2
  obtain ⟨z, s2, rfl, h5, h6⟩ := map_one h4
  obtain rfl := List.map_eq_nil_iff.1 h6
  obtain ⟨a1, a2, _, _, hl⟩ := hl
  obtain ⟨l1, b1, b2, _, _, _⟩ := (laid_append sa [z] rest).1 hl
  rw [h1] at a2
  rw [h5] at b2
  show F d n b (p.gap ++ p.bytes ++ source (sa ++ [z]) rest) = _
  rw [show p.bytes = [123] from a2, List.append_assoc, F_gap hd a1, List.singleton_append, F_bopen, source_append,
    h n (b + 1) (fun _ => .inr (by omega)) sa _ h3 l1]
  show F d n (b + 1) (z.gap ++ z.bytes ++ rest) = _
  rw [show z.bytes = [125] from b2, List.append_assoc, F_gap hd b1, List.singleton_append, F_bclose]

theorem Pass.params (hd : GoodDict d) (hk : CalmDict d) (ps : List Text) :
    Pass d d' W true (ps.flatMap (fun p => [Cell.param, Cell.word p])) := by
  induction ps with
  | nil => exact Pass.nil
  | cons p ps ih =>
    rw [List.flatMap_cons]
    exact (Pass.append (Pass.cons (Pass.heavy hd hk (by exact trivial)) (Pass.light hd (by exact trivial))) ih)

theorem Pass.ref (hd : GoodDict d) (m : Nat) (n : Text) {deep : Bool} :
    Pass d d' W deep ((if m = 0 then [] else if m = 1 then [Cell.word d.my] else [.word d.var]) ++ [.word n]) := by
  refine Pass.append ?_ (Pass.light hd (by exact trivial))
  split
  · exact Pass.nil
  · split <;> exact Pass.light hd (by exact trivial)

mutual
theorem deep_node (hd : GoodDict d) (hk : CalmDict d) : ∀ (e : Node) (k : Bool), Pass d d' W true (cells d W k e)
  | .ref m n, k => by rw [cells]; exact Pass.ref hd m n
  | .num v, k => by rw [cells]; exact Pass.heavy hd hk (by exact trivial)
  | .str v, k => by rw [cells]; exact Pass.light hd (by exact trivial)
  | .block ps b, k => by
    rw [cells]
    exact Pass.block hd (Pass.append (Pass.params hd hk ps) (deep_stmts hd hk b))
  | .nested e, k => by rw [cells]; exact Pass.paren hd (deep_node hd hk e false)
  | .assign r e, k => by
    rw [cells]
    exact Pass.append (deep_node hd hk r k) (Pass.cons (Pass.heavy hd hk (by exact trivial)) (deep_node hd hk e k))
  | .msg r ms, k => by rw [cells]; exact Pass.append (deep_node hd hk r k) (deep_msgs hd hk ms k false)
  | .ret e, k => by rw [cells]; exact Pass.cons (Pass.heavy hd hk (by exact trivial)) (deep_node hd hk e k)
  | .una n, k => by rw [cells]; exact Pass.light hd (by exact trivial)
  | .bin o a, k => by rw [cells]; exact Pass.cons (Pass.light hd (by exact trivial)) (deep_node hd hk a k)
  | .kw ps as, k => by rw [cells]; exact deep_args hd hk as true ps _
theorem deep_stmts (hd : GoodDict d) (hk : CalmDict d) : ∀ es : List Node, Pass d d' W true (cellStmts d W es)
  | [] => by rw [cellStmts]; exact Pass.nil
  | e :: es => by
    rw [cellStmts]
    exact Pass.append (deep_node hd hk e false) (Pass.cons (Pass.heavy hd hk (by exact trivial)) (deep_stmts hd hk es))
theorem deep_msgs (hd : GoodDict d) (hk : CalmDict d) : ∀ (ms : List Node) (k kw : Bool),
    Pass d d' W true (cellMsgs d W k kw ms)
  | [], _, _ => by rw [cellMsgs]; exact Pass.nil
  | m :: ms, k, kw => by
    rw [cellMsgs]
    refine Pass.append (Pass.append ?_ (deep_node hd hk m k)) (deep_msgs hd hk ms k (isKw m))
    split
    · exact Pass.heavy hd hk (by exact trivial)
    · exact Pass.nil
theorem deep_args (hd : GoodDict d) (hk : CalmDict d) : ∀ (as : List Node) (f : Bool) (ws ws' : List Text),
    Pass d d' W true (cellArgs d W f ws ws' as)
  | [], f, ws, ws' => by
    cases ws <;> cases ws' <;> (unfold cellArgs; exact Pass.nil)
  | a :: as, f, ws, ws' => by
    cases ws with
    | nil => unfold cellArgs; exact Pass.nil
    | cons w ws =>
      cases ws' with
      | nil => unfold cellArgs; exact Pass.nil
      | cons w' ws' =>
        rw [cellArgs]
        exact Pass.cons (Pass.light hd (by exact trivial)) (Pass.cons (Pass.heavy hd hk (by exact trivial))
          (Pass.append (deep_node hd hk a true) (deep_args hd hk as false ws ws')))
end

mutual
/-- The argument of a message with parameters is passed over. -/
theorem light_node (hd : GoodDict d) (hk : CalmDict d) : ∀ (e : Node) (r : Nat), 1 ≤ r → gram d r e = true →
    Pass d d' W false (cells d W true e)
  | .ref m n, r, _, _ => by rw [cells]; exact Pass.ref hd m n
  | .num v, r, _, _ => by rw [cells]; exact Pass.light hd (by exact rfl)
  | .str v, r, _, _ => by rw [cells]; exact Pass.light hd (by exact trivial)
  | .block ps b, r, _, _ => by
    rw [cells]
    exact Pass.block hd (Pass.append (Pass.params hd hk ps) (deep_stmts hd hk b))
  | .nested e, r, _, _ => by rw [cells]; exact Pass.paren hd (deep_node hd hk e false)
  | .assign r' e, r, hr, h => by
    unfold gram at h
    simp only [Bool.and_eq_true, beq_iff_eq] at h
    omega
  | .msg r' ms, r, hr, h => by
    unfold gram at h
    simp only [Bool.and_eq_true] at h
    obtain ⟨⟨⟨h1, h2⟩, _⟩, h3⟩ := h
    rw [cells]
    refine Pass.append ?_ (light_msgs hd hk ms r hr false h3)
    cases r' with
    | ref m n => exact light_node hd hk (.ref m n) 1 (Nat.le_refl _) (by unfold gram at h2 ⊢; exact h2)
    | num v => exact light_node hd hk (.num v) 1 (Nat.le_refl _) (by unfold gram at h2 ⊢; exact h2)
    | str v => exact light_node hd hk (.str v) 1 (Nat.le_refl _) (by unfold gram at h2 ⊢; exact h2)
    | block ps b => exact light_node hd hk (.block ps b) 1 (Nat.le_refl _) (by unfold gram at h2 ⊢; exact h2)
    | nested e => exact light_node hd hk (.nested e) 1 (Nat.le_refl _) (by unfold gram at h2 ⊢; exact h2)
    | _ => cases h1
  | .ret e, r, _, h => by unfold gram at h; cases h
  | .una n, r, _, h => by unfold gram at h; cases h
  | .bin o a, r, _, h => by unfold gram at h; cases h
  | .kw ps as, r, _, h => by unfold gram at h; cases h
theorem light_msgs (hd : GoodDict d) (hk : CalmDict d) : ∀ (ms : List Node) (r : Nat), 1 ≤ r → ∀ bin : Bool,
    gramMsgs d r bin ms = true → Pass d d' W false (cellMsgs d W true false ms)
  | [], _, _, _, _ => by rw [cellMsgs]; exact Pass.nil
  | m :: ms, r, hr, bin, h => by
    rw [cellMsgs, if_neg (by simp), List.nil_append]
    cases m with
    | una n =>
      unfold gramMsgs at h
      simp only [Bool.and_eq_true] at h
      rw [cells]
      exact Pass.append (Pass.light hd (by exact trivial)) (light_msgs hd hk ms r hr false h.2)
    | bin o a =>
      unfold gramMsgs at h
      simp only [Bool.and_eq_true] at h
      rw [cells]
      exact Pass.append (Pass.cons (Pass.light hd (by exact trivial)) (light_node hd hk a 2 (by omega) h.1.2))
        (light_msgs hd hk ms r hr true h.2)
    | kw ps as =>
      unfold gramMsgs at h
      simp only [Bool.and_eq_true, beq_iff_eq] at h
      omega
    | _ => unfold gramMsgs at h; cases h
end

end

end Verif.Lemmas.TransProg
