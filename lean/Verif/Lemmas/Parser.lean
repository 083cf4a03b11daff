import Verif.Model.Parser
import Verif.Lemmas.LexerTok

/-!
# Lemmas about the parser: progress and termination
-/

namespace Verif.Model.Parser
open Verif.Spec (Dict Node)
open Verif.Model.Lexer (Tok LS)
open Verif.Spec.Lexer

@[simp] theorem PR.ok_bind {α β : Type} (a : α) (s : PS) (f : α → PS → PR β) : (PR.ok a s).bind f = f a s := rfl

/-- The outcome is not `more`, and a success satisfies `Q`. -/
def Fine {α : Type} (x : PR α) (Q : α → PS → Prop) : Prop :=
  match x with
  | .ok a s => Q a s
  | .more => False
  | _ => True

theorem Fine.bind {α β : Type} {x : PR α} {f : α → PS → PR β} {Q : α → PS → Prop} {R : β → PS → Prop}
    (h : Fine x Q) (hf : ∀ a s, Q a s → Fine (f a s) R) : Fine (x.bind f) R := by
  cases x with
  | ok a s => exact hf a s h
  | more => exact h.elim
  | fail => trivial
  | ub => trivial
  | exit => trivial

theorem Fine.mono {α : Type} {x : PR α} {Q R : α → PS → Prop} (h : Fine x Q) (hi : ∀ a s, Q a s → R a s) : Fine x R := by
  cases x with
  | ok a s => exact hi a s h
  | more => exact h.elim
  | fail => trivial
  | ub => trivial
  | exit => trivial

theorem Fine.of_ok {α : Type} {x : PR α} {Q : α → PS → Prop} (h : Fine x Q) {a : α} {s : PS} (e : x = .ok a s) : Q a s := by
  rw [e] at h; exact h

theorem Fine.ne_more {α : Type} {x : PR α} {Q : α → PS → Prop} (h : Fine x Q) : x ≠ .more := by
  rintro rfl; exact h

/-- Bytes left. -/
def len (s : PS) : Nat := s.lx.code.length

theorem back_code (s : PS) : (back s).lx.code = s.lx.old := rfl
theorem back_old (s : PS) : (back s).lx.old = s.lx.older := rfl
theorem len_back (s : PS) : len (back s) = s.lx.old.length := rfl

theorem tok_fine {d : Dict} (hd : Usable d) (s : PS) : Fine (tok d s) fun t s' =>
    s'.lx.old = s.lx.code ∧ s'.lx.older = s.lx.old ∧ len s' ≤ len s ∧ (t ≠ .fin → len s' < len s) ∧
      (t = .fin → s'.lx.code = []) := by
  unfold tok
  cases h : Lexer.tok d s.lx with
  | ub => trivial
  | exit => trivial
  | ok p =>
    obtain ⟨t, lx⟩ := p
    obtain ⟨h1, h2, h3⟩ := Lexer.tok_code h
    obtain ⟨h4, h5⟩ := Lexer.tok_suffix hd h
    refine ⟨h2, h3, h4.length_le, fun hf => ?_, fun hf => ?_⟩
    · rcases h5 with h5 | h5
      · exact absurd h5.1 hf
      · exact h5.2
    · rcases h5 with h5 | h5
      · exact h5.2.2
      · exact absurd hf h5.1

theorem readLoop_len {d : Dict} {ig : Bool} {k : Nat} {st : Lexer.RS} {code v rest : Text}
    (h : Lexer.readLoop d ig k st code = .ok (v, rest)) : rest.length ≤ code.length := by
  have hfin : ∀ (st : Lexer.RS) (c v r : Text), Lexer.finish d st c = (v, r) → r.length ≤ c.length := by
    intro st c v r h
    unfold Lexer.finish at h
    simp only [Prod.mk.injEq] at h
    rw [← h.2]
    split
    · rw [List.length_drop]; omega
    · omega
  induction code generalizing k st with
  | nil =>
    have : Lexer.readLoop d ig k st [] = .ok (Lexer.finish d st []) := by cases k <;> rfl
    rw [this] at h
    exact hfin st [] v rest (by cases h; rfl)
  | cons c r ih =>
    rw [List.length_cons]
    cases k with
    | succ k => exact Nat.le_succ_of_le (ih h)
    | zero =>
      unfold Lexer.readLoop at h
      split at h
      · split at h
        · exact Nat.le_succ_of_le (ih h)
        · cases h
        · cases h
      · exact hfin st _ v rest (by cases h; rfl)

theorem readstr_fine (d : Dict) (s : PS) : Fine (readstr d s) fun _ s' => len s' ≤ len s := by
  unfold readstr Lexer.readstrS
  cases h : Lexer.readstr d false s.lx.code with
  | ub => trivial
  | exit => trivial
  | ok p =>
    obtain ⟨v, rest⟩ := p
    exact readLoop_len h

theorem chars_fine (v : Text) (s : PS) : Fine (chars v s) fun _ s' => s' = s := by
  unfold chars
  cases h : Txt.getutf8len v v.length with
  | ub => trivial
  | exit => trivial
  | ok p => rfl

theorem refVar_fine {d : Dict} (hd : Usable d) (m : Nat) (s : PS) : Fine (refVar d m s) fun _ s' => len s' ≤ len s := by
  unfold refVar
  split
  · refine (tok_fine hd s).bind fun t s1 h1 => ?_
    split
    · exact h1.2.2.1
    · trivial
  · exact Nat.le_refl _

/-- Reading one token again after having put it back. -/
theorem again {d : Dict} {s s' : PS} {t : Tok} (h : tok d s = .ok t s') :
    ∃ s'', tok d (back s') = .ok t s'' ∧ s''.lx.code = s'.lx.code ∧ s''.lx.old = s.lx.code ∧ s''.lx.val = s'.lx.val ∧
      s''.err = s'.err := by
  unfold tok at h ⊢
  cases h1 : Lexer.tok d s.lx with
  | ub => rw [h1] at h; cases h
  | exit => rw [h1] at h; cases h
  | ok p =>
    obtain ⟨t', lx⟩ := p
    rw [h1] at h
    obtain ⟨h2, h3, h4⟩ := Lexer.tok_code h1
    simp only [PR.ok.injEq] at h
    obtain ⟨rfl, rfl⟩ := h
    have e : Lexer.tok d (back { s with lx := lx }).lx = .ok (t', ⟨lx.code, s.lx.code, s.lx.old, lx.val⟩) := by
      show Lexer.tok d (Lexer.putback lx) = _
      unfold Lexer.tok Lexer.putback
      dsimp only
      rw [h3, h2, h4]
      rfl
    rw [e]
    exact ⟨_, rfl, rfl, rfl, rfl, rfl⟩

theorem again_fine {d : Dict} (hd : Usable d) {s s' : PS} {t : Tok} (h : tok d s = .ok t s') (ht : t ≠ .fin) :
    Fine (tok d (back s')) fun _ s'' => len s'' < len s ∧ s''.lx.old = s.lx.code := by
  obtain ⟨s'', h1, h2, h3, _⟩ := again h
  rw [h1]
  have := ((tok_fine hd s).of_ok h).2.2.2.1 ht
  refine ⟨?_, h3⟩
  unfold len at *
  rw [h2]
  exact this

theorem ref_fine {d : Dict} (hd : Usable d) {s s' : PS} (h : tok d s = .ok .ref s') :
    Fine (ref d (back s')) fun _ s'' => len s'' < len s := by
  unfold ref
  refine (again_fine hd h (by simp)).bind fun _ s1 h1 => ?_
  split
  · refine (tok_fine hd s1).bind fun t s2 h2 => ?_
    split
    · refine (refVar_fine hd 1 s2).mono fun _ s3 h3 => ?_
      have := h2.2.2.1
      omega
    · trivial
  · refine (refVar_fine hd 0 s1).mono fun _ s3 h3 => ?_
    omega

theorem tok_nil {d : Dict} {s : PS} (h : s.lx.code = []) :
    tok d s = .ok .fin { s with lx := ⟨[], [], s.lx.old, []⟩ } := by
  have : Lexer.tok d s.lx = .ok (.fin, ⟨[], [], s.lx.old, []⟩) := by
    unfold Lexer.tok; rw [h]; rfl
  unfold tok
  rw [this]

theorem params_fine {d : Dict} (hd : Usable d) (n : Nat) (ps : List Text) (t : Tok) (s : PS)
    (hn : len s + 2 ≤ n) : Fine (params d n ps t s) fun _ s' =>
      len s' ≤ len s ∧ s'.lx.old.length ≤ max s.lx.old.length (len s) := by
  induction n generalizing ps t s with
  | zero => omega
  | succ n ih =>
    unfold params
    split
    · rename_i ht
      refine (tok_fine hd s).bind fun t1 s1 h1 => ?_
      by_cases hf : t1 = .fin
      · have h2 := h1.2.2.2.2 hf
        rw [tok_nil h2, PR.ok_bind]
        obtain ⟨m, rfl⟩ : ∃ m, n = m + 1 := ⟨n - 1, by omega⟩
        unfold params
        rw [if_neg (by simp)]
        exact ⟨Nat.zero_le _, Nat.zero_le _⟩
      · have h3 := h1.2.2.2.1 hf
        refine (tok_fine hd s1).bind fun t2 s2 h2 => ?_
        refine (ih (ps ++ [val s1]) t2 s2 (by have := h2.2.2.1; omega)).mono fun _ s3 h4 => ?_
        have e1 := h2.1
        have e2 := h2.2.2.1
        have e3 := h1.2.2.1
        have e4 : s2.lx.old.length = len s1 := by rw [e1]; rfl
        rw [e4] at h4
        omega
    · exact ⟨Nat.le_refl _, Nat.le_max_left _ _⟩

/-- Progress and termination of the six mutually recursive functions. -/
structure AllFine (d : Dict) (n : Nat) : Prop where
  expr : ∀ mode s, 4 * len s + 2 ≤ n → Fine (expr d n mode s) fun _ s' => len s' < len s
  receiver : ∀ s, 4 * len s + 1 ≤ n → Fine (receiver d n s) fun _ s' => len s' < len s
  statements : ∀ acc s, 4 * len s + 3 ≤ n → Fine (statements d n acc s) fun _ s' => len s' ≤ len s
  messages : ∀ mode acc kw s, 4 * len s + 2 ≤ n → Fine (messages d n mode acc kw s) fun _ s' => len s' ≤ len s
  message : ∀ mode s, 4 * len s + 1 ≤ n → (∀ s', tok d s ≠ .ok .fin s') →
    Fine (message d n mode s) fun m s' => len s' ≤ len s ∧ (m ≠ none → len s' < len s)
  keywords : ∀ ps args s, 4 * len s + 3 ≤ n → Fine (keywords d n ps args s) fun m s' => len s' < len s

theorem allFine {d : Dict} (hd : Usable d) (n : Nat) : AllFine d n := by
  induction n with
  | zero => constructor <;> (intros; omega)
  | succ n ih =>
    constructor
    · intro mode s hn
      unfold Parser.expr
      refine (ih.receiver s (by omega)).bind fun r s1 h1 => ?_
      refine (tok_fine hd s1).bind fun t2 s2 h2 => ?_
      refine (tok_fine hd s2).bind fun t3 s3 h3 => ?_
      have hl : len (back (back s3)) = len s1 := by
        rw [len_back, back_old, h3.2.1, h2.1]; rfl
      dsimp only
      generalize hb : back (back s3) = sb at hl
      split
      · show len sb < len s; omega
      split
      · trivial
      split
      · trivial
      split
      · split
        · refine (tok_fine hd sb).bind fun _ s4 h4 => ?_
          have e4 := h4.2.2.1
          refine (ih.expr 0 s4 (by omega)).bind fun e s5 h5 => ?_
          show len s5 < len s; omega
        · trivial
      split
      · show len sb < len s; omega
      · refine (ih.messages mode [] false sb (by omega)).bind fun ms s4 h4 => ?_
        split
        · refine (tok_fine hd s4).bind fun _ s5 h5 => ?_
          show len (back s5) < len s
          rw [len_back, h5.1]
          show len s4 < len s
          omega
        · show len s4 < len s; omega
    · intro s hn
      unfold Parser.receiver
      cases ht : tok d s with
      | ub => trivial
      | exit => trivial
      | fail => trivial
      | more => exact absurd ht (tok_fine hd s).ne_more
      | ok t s1 =>
        rw [PR.ok_bind]
        have h1 := (tok_fine hd s).of_ok ht
        dsimp only
        cases t
        case number =>
          dsimp only
          unfold number
          exact (again_fine hd ht (by simp)).bind fun _ s2 h2 => h2.1
        case quote =>
          dsimp only
          unfold string
          refine (again_fine hd ht (by simp)).bind fun _ s2 h2 => ?_
          refine (readstr_fine d s2).bind fun _ s3 h3 => ?_
          show len s3 < len s
          omega
        case ref => exact ref_fine hd ht
        case blockOpen =>
          dsimp only
          refine (again_fine hd ht (by simp)).bind fun _ s2 h2 => ?_
          refine (tok_fine hd s2).bind fun t s3 h3 => ?_
          split
          · trivial
          · have e3 := h3.2.2.1
            have e4 : s3.lx.old.length = len s2 := by rw [h3.1]; rfl
            refine (params_fine hd n [] t s3 (by omega)).bind fun ps s4 h4 => ?_
            rw [e4] at h4
            have e5 : len (back s4) < len s := by rw [len_back]; omega
            refine (ih.statements [] (back s4) (by omega)).bind fun b s5 h5 => ?_
            show len s5 < len s
            omega
        case parOpen =>
          dsimp only
          refine (again_fine hd ht (by simp)).bind fun _ s2 h2 => ?_
          refine (ih.expr 0 s2 (by omega)).bind fun e s3 h3 => ?_
          refine (tok_fine hd s3).bind fun t s4 h4 => ?_
          split
          · show len s4 < len s
            have := h4.2.2.1
            omega
          · trivial
        all_goals trivial
    · intro acc s hn
      unfold Parser.statements
      refine (tok_fine hd s).bind fun t s1 h1 => ?_
      split
      · exact h1.2.2.1
      · dsimp only
        have hb : len (back s1) = len s := by rw [len_back, h1.1]; rfl
        generalize back s1 = sb at hb
        have key : ∀ x : PR Node, Fine x (fun _ s' => len s' < len s) →
            Fine (x.bind fun e s => (tok d s).bind fun t s =>
              if t = .dot then Parser.statements d n (acc ++ [e]) s else .fail) (fun _ s' => len s' ≤ len s) := by
          intro x hx
          refine hx.bind fun e s2 h2 => ?_
          refine (tok_fine hd s2).bind fun t s3 h3 => ?_
          have := h3.2.2.1
          split
          · refine (ih.statements _ s3 (by omega)).mono fun _ s4 h4 => ?_
            omega
          · trivial
        apply key
        split
        · refine (tok_fine hd sb).bind fun _ s2 h2 => ?_
          have := h2.2.2.1
          refine (ih.expr 0 s2 (by omega)).bind fun e s3 h3 => ?_
          show len s3 < len s
          omega
        · refine (ih.expr 0 sb (by omega)).mono fun _ s3 h3 => ?_
          omega
    · intro mode acc kw s hn
      unfold Parser.messages
      cases ht : tok d s with
      | ub => trivial
      | exit => trivial
      | fail => trivial
      | more => exact absurd ht (tok_fine hd s).ne_more
      | ok t s1 =>
        rw [PR.ok_bind]
        have h1 := (tok_fine hd s).of_ok ht
        split
        · rename_i hc
          -- after the chain symbol, or at once, a reference has been read
          have hpre : Fine (if t = .chain then (tok d s1).bind fun t s => if t = .ref then .ok () s else .fail
              else (.ok () s1 : PR Unit)) fun _ s2 => len (back s2) ≤ len s ∧ ∃ s3, tok d (back s2) = .ok .ref s3 := by
            split
            · rename_i hch
              cases ht2 : tok d s1 with
              | ub => trivial
              | exit => trivial
              | fail => trivial
              | more => exact absurd ht2 (tok_fine hd s1).ne_more
              | ok t2 s2 =>
                rw [PR.ok_bind]
                have h2 := (tok_fine hd s1).of_ok ht2
                split
                · rename_i hr
                  subst hr
                  refine ⟨?_, ?_⟩
                  · rw [len_back, h2.1]; exact h1.2.2.1
                  · obtain ⟨s3, h3, _⟩ := again ht2
                    exact ⟨s3, h3⟩
                · trivial
            · rename_i hch
              have hr : t = .ref := by
                rcases hc with hc | hc
                · exact hc
                · exact absurd hc.1 hch
              subst hr
              refine ⟨?_, ?_⟩
              · rw [len_back, h1.1]; exact Nat.le_refl _
              · obtain ⟨s3, h3, _⟩ := again ht
                exact ⟨s3, h3⟩
          refine hpre.bind fun _ s2 h2 => ?_
          obtain ⟨e2, s3, h3⟩ := h2
          refine (ih.message mode (back s2) (by omega) (by intro s' h'; rw [h3] at h'; cases h')).bind fun m s4 h4 => ?_
          cases m with
          | none =>
            dsimp only
            split
            · show len s4 ≤ len s; omega
            · refine (tok_fine hd s4).bind fun _ s5 h5 => ?_
              show len (back s5) ≤ len s
              rw [len_back, h5.1]
              show len s4 ≤ len s; omega
          | some m =>
            dsimp only
            have := h4.2 (by simp)
            refine (ih.messages mode _ _ s4 (by omega)).mono fun _ s5 h5 => ?_
            omega
        · split
          · trivial
          · show len (back s1) ≤ len s
            rw [len_back, h1.1]; exact Nat.le_refl _
    · intro mode s hn hnf
      unfold Parser.message
      cases ht : tok d s with
      | ub => trivial
      | exit => trivial
      | fail => trivial
      | more => exact absurd ht (tok_fine hd s).ne_more
      | ok t s1 =>
        rw [PR.ok_bind]
        have h1 := (tok_fine hd s).of_ok ht
        have hlt : len s1 < len s := h1.2.2.2.1 (by rintro rfl; exact hnf _ ht)
        dsimp only
        split
        · trivial
        · refine (chars_fine _ s1).bind fun ulen s1' h1' => ?_
          subst h1'
          refine (tok_fine hd s1').bind fun la s2 h2 => ?_
          have hb : len (back s2) = len s1' := by rw [len_back, h2.1]; rfl
          have hbb : len (back (back s2)) = len s := by rw [len_back, back_old, h2.2.1, h1.1]; rfl
          have ho : (back s2).lx.old = s.lx.code := by rw [back_old, h2.2.1, h1.1]
          generalize back s2 = sb at hb hbb ho
          split
          · exact ⟨by omega, fun h => absurd rfl h⟩
          split
          · refine (ih.expr 2 sb (by omega)).bind fun a s3 h3 => ?_
            exact ⟨by omega, fun _ => by omega⟩
          · refine (tok_fine hd sb).bind fun la s3 h3 => ?_
            have hb3 : len (back s3) = len s1' := by rw [len_back, h3.1]; exact hb
            have hbb3 : len (back (back s3)) = len s := by rw [len_back, back_old, h3.2.1, ho]; rfl
            generalize back s3 = sc at hb3 hbb3
            split
            · split
              · exact ⟨by omega, fun h => absurd rfl h⟩
              split
              · trivial
              · refine (tok_fine hd sc).bind fun _ s4 h4 => ?_
                have := h4.2.2.1
                refine (ih.keywords _ _ s4 (by omega)).mono fun _ s5 h5 => ?_
                exact ⟨by omega, fun _ => by omega⟩
            · exact ⟨by omega, fun _ => by omega⟩
    · intro ps args s hn
      unfold Parser.keywords
      refine (ih.expr 1 s (by omega)).bind fun a s1 h1 => ?_
      refine (tok_fine hd s1).bind fun t s2 h2 => ?_
      have e2 := h2.2.2.1
      split
      · show len (back s2) < len s
        rw [len_back, h2.1]; exact h1
      split
      · split
        · trivial
        split
        · trivial
        · refine (tok_fine hd s2).bind fun t s3 h3 => ?_
          have e3 := h3.2.2.1
          refine (ih.keywords _ _ _ ?_).mono fun _ s4 h4 => ?_
          · show 4 * len s3 + 3 ≤ n; omega
          · have h4' : len s4 < len s3 := h4
            omega
      · refine (ih.keywords _ _ s2 (by omega)).mono fun _ s4 h4 => ?_
        omega

theorem program_fine {d : Dict} (hd : Usable d) (n : Nat) (acc : List Node) (s : PS) (hn : 4 * len s + 3 ≤ n) :
    Fine (program d n acc s) fun _ s' => s'.lx.code = [] := by
  induction n generalizing acc s with
  | zero => omega
  | succ n ih =>
    unfold program
    cases ht : tok d s with
    | ub => trivial
    | exit => trivial
    | fail => trivial
    | more => exact absurd ht (tok_fine hd s).ne_more
    | ok t s1 =>
      rw [PR.ok_bind]
      have h1 := (tok_fine hd s).of_ok ht
      dsimp only
      split
      · rename_i hf
        subst hf
        obtain ⟨s2, h2, h3, _⟩ := again ht
        rw [h2, PR.ok_bind]
        show s2.lx.code = []
        rw [h3]; exact h1.2.2.2.2 rfl
      · have hb : len (back s1) = len s := by rw [len_back, h1.1]; rfl
        generalize back s1 = sb at hb
        have key : ∀ x : PR Node, Fine x (fun _ s' => len s' < len s) →
            Fine (x.bind fun e s => (tok d s).bind fun t s =>
              if t = .dot then program d n (acc ++ [e]) s else .fail) (fun _ s' => s'.lx.code = []) := by
          intro x hx
          refine hx.bind fun e s2 h2 => ?_
          refine (tok_fine hd s2).bind fun t s3 h3 => ?_
          have := h3.2.2.1
          split
          · exact ih _ s3 (by omega)
          · trivial
        apply key
        split
        · refine (tok_fine hd sb).bind fun _ s2 h2 => ?_
          have := h2.2.2.1
          refine ((allFine hd n).expr 0 s2 (by omega)).bind fun e s3 h3 => ?_
          show len s3 < len s
          omega
        · refine ((allFine hd n).expr 0 sb (by omega)).mono fun _ s3 h3 => ?_
          omega

end Verif.Model.Parser
