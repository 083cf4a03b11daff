import Verif.Model.Parser
import Verif.Spec.Parser

/-!
# Lemmas: the shape of the trees the parser answers
-/

namespace Verif.Model.Parser
open Verif.Spec (Dict Node)
open Verif.Spec.Parser
open Verif.Model.Lexer (Tok LS)

/-- If there is an answer, then it satisfies `P`. -/
def Yields {α : Type} (x : PR α) (P : α → Prop) : Prop := ∀ a s, x = .ok a s → P a

theorem Yields.bind {α β : Type} {x : PR α} {f : α → PS → PR β} {P : α → Prop} {Q : β → Prop} (h : Yields x P)
    (hf : ∀ a s, P a → Yields (f a s) Q) : Yields (x.bind f) Q := by
  cases x with
  | ok a s => exact hf a s (h a s rfl)
  | _ => intro a s h; cases h

theorem Yields.triv {α : Type} (x : PR α) : Yields x (fun _ => True) := fun _ _ _ => trivial

theorem Yields.ok {α : Type} {a : α} {s : PS} {P : α → Prop} (h : P a) : Yields (.ok a s) P := by
  intro b s h'
  cases h'
  exact h

theorem Yields.fail {α : Type} {P : α → Prop} : Yields (.fail : PR α) P := by
  intro b s h'; cases h'

theorem Yields.ite {α : Type} {c : Prop} [Decidable c] {x y : PR α} {P : α → Prop} (h1 : c → Yields x P)
    (h2 : ¬ c → Yields y P) : Yields (if c then x else y) P := by
  by_cases h : c
  · rw [if_pos h]; exact h1 h
  · rw [if_neg h]; exact h2 h

theorem refVar_ranked {d : Dict} {m : Nat} (hm : m ≤ 2) (s : PS) :
    Yields (refVar d m s) fun e => prim e = true ∧ ranked 0 e = true := by
  unfold refVar
  refine Yields.ite (fun _ => ?_) (fun _ => ?_)
  · refine Yields.bind (Yields.triv _) fun _ _ _ => Yields.ite (fun _ => Yields.ok ⟨rfl, ?_⟩) fun _ => Yields.fail
    unfold ranked; rfl
  · refine Yields.ok ⟨rfl, ?_⟩
    unfold ranked
    exact decide_eq_true hm

theorem ref_ranked {d : Dict} (s : PS) : Yields (ref d s) fun e => prim e = true ∧ ranked 0 e = true := by
  unfold ref
  refine Yields.bind (Yields.triv _) fun _ _ _ => Yields.ite (fun _ => ?_) fun _ => refVar_ranked (by omega) _
  exact Yields.bind (Yields.triv _) fun _ _ _ => Yields.ite (fun _ => refVar_ranked (by omega) _) fun _ => Yields.fail

theorem rankedStmts_append {a : List Node} {e : Node} (ha : rankedStmts a = true) (he : rankedStmts [e] = true) :
    rankedStmts (a ++ [e]) = true := by
  induction a with
  | nil => exact he
  | cons x xs ih =>
    rw [List.cons_append]
    cases x <;> unfold rankedStmts at ha ⊢ <;> rw [Bool.and_eq_true] at ha ⊢ <;> exact ⟨ha.1, ih ha.2⟩

theorem rankedMsgs_append {k : Nat} {a : List Node} {e : Node} (ha : rankedMsgs k a = true) (he : rankedMsgs k [e] = true) :
    rankedMsgs k (a ++ [e]) = true := by
  induction a with
  | nil => exact he
  | cons x xs ih =>
    rw [List.cons_append]
    cases x <;> unfold rankedMsgs at ha ⊢ <;> first
      | exact ih ha
      | (rw [Bool.and_eq_true] at ha ⊢; exact ⟨ha.1, ih ha.2⟩)
      | cases ha

theorem rankedArgs_append {a : List Node} {e : Node} (ha : rankedArgs a = true) (he : ranked 1 e = true) :
    rankedArgs (a ++ [e]) = true := by
  induction a with
  | nil =>
    rw [List.nil_append]
    unfold rankedArgs
    rw [he]
    unfold rankedArgs
    rfl
  | cons x xs ih =>
    rw [List.cons_append]
    unfold rankedArgs at ha ⊢
    rw [Bool.and_eq_true] at ha ⊢
    exact ⟨ha.1, ih ha.2⟩

theorem ranked_prim {k : Nat} {e : Node} (hp : prim e = true) (h : ranked 0 e = true) : ranked k e = true := by
  cases e <;> first | (cases hp; done) | (unfold ranked at h ⊢; exact h)

theorem ranked_stmt {e : Node} (h : ranked 0 e = true) : rankedStmts [e] = true := by
  cases e <;> first
    | (unfold rankedStmts; rw [h]; unfold rankedStmts; rfl)
    | (unfold ranked at h; cases h; done)

theorem ranked_ret {e : Node} (h : ranked 0 e = true) : rankedStmts [.ret e] = true := by
  unfold rankedStmts; rw [h]; unfold rankedStmts; rfl

/-- All of the parser at fuel `n`. -/
structure AllRanked (d : Dict) (n : Nat) : Prop where
  expr : ∀ k s, k ≤ 2 → Yields (expr d n k s) fun e => ranked k e = true
  receiver : ∀ s, Yields (receiver d n s) fun e => prim e = true ∧ ranked 0 e = true
  statements : ∀ a s, rankedStmts a = true → Yields (statements d n a s) fun es => rankedStmts es = true
  messages : ∀ k a b s, k ≤ 2 → rankedMsgs k a = true → Yields (messages d n k a b s) fun ms => rankedMsgs k ms = true
  message : ∀ k s, k ≤ 2 → Yields (message d n k s) fun m => ∀ x, m = some x → rankedMsgs k [x] = true
  keywords : ∀ ps as s, ps ≠ [] → ps.length ≤ as.length + 1 → partsLen ps ≤ 255 → rankedArgs as = true →
    Yields (keywords d n ps as s) fun m => ∀ x, m = some x → rankedMsgs 0 [x] = true

theorem allRanked {d : Dict} (n : Nat) : AllRanked d n := by
  induction n with
  | zero =>
    constructor <;> intros
    · unfold expr; intro a s h; cases h
    · unfold receiver; intro a s h; cases h
    · unfold statements; intro a s h; cases h
    · unfold messages; intro a s h; cases h
    · unfold message; intro a s h; cases h
    · unfold keywords; intro a s h; cases h
  | succ n ih =>
    constructor
    · intro k s hk
      rw [expr]
      refine Yields.bind (ih.receiver _) fun r s hr => Yields.bind (Yields.triv _) fun _ _ _ =>
        Yields.bind (Yields.triv _) fun _ _ _ => ?_
      have hrk : ranked k r = true := ranked_prim hr.1 hr.2
      refine Yields.ite (fun _ => Yields.ok hrk) fun _ => Yields.ite (fun _ => Yields.fail) fun _ =>
        Yields.ite (fun _ => Yields.fail) fun _ => Yields.ite (fun _ => ?_) fun _ => Yields.ite (fun _ => Yields.ok hrk) fun _ => ?_
      · cases r
        case ref m v =>
          refine Yields.bind (Yields.triv _) fun _ _ _ => Yields.bind (ih.expr 0 _ (by omega)) fun e _ he => Yields.ok ?_
          unfold ranked
          rw [he]
          rfl
        all_goals exact Yields.fail
      · refine Yields.bind (ih.messages k _ _ _ hk (by unfold rankedMsgs; rfl)) fun ms s hms => Yields.ite (fun _ => ?_) fun h => ?_
        · exact Yields.bind (Yields.triv _) fun _ _ _ => Yields.ok hrk
        · refine Yields.ok ?_
          unfold ranked
          rw [hr.1, hr.2, hms]
          cases ms with
          | nil => exact absurd rfl h
          | cons => rfl
    · intro s
      rw [receiver]
      refine Yields.bind (Yields.triv _) fun t s _ => ?_
      cases t
      case number =>
        exact Yields.bind (Yields.triv _) fun _ _ _ => Yields.ok ⟨rfl, by unfold ranked; rfl⟩
      case quote =>
        exact Yields.bind (Yields.triv _) fun _ _ _ => Yields.bind (Yields.triv _) fun _ _ _ =>
          Yields.ok ⟨rfl, by unfold ranked; rfl⟩
      case ref => exact ref_ranked _
      case blockOpen =>
        refine Yields.bind (Yields.triv _) fun _ _ _ => Yields.bind (Yields.triv _) fun _ _ _ => Yields.ite (fun _ => Yields.fail) fun _ => ?_
        refine Yields.bind (Yields.triv _) fun _ _ _ => Yields.bind (ih.statements _ _ (by unfold rankedStmts; rfl)) fun b _ hb =>
          Yields.ok ⟨rfl, ?_⟩
        unfold ranked
        exact hb
      case parOpen =>
        refine Yields.bind (Yields.triv _) fun _ _ _ => Yields.bind (ih.expr 0 _ (by omega)) fun e _ he =>
          Yields.bind (Yields.triv _) fun _ _ _ => Yields.ite (fun _ => Yields.ok ⟨rfl, ?_⟩) fun _ => Yields.fail
        unfold ranked
        exact he
      all_goals exact Yields.fail
    · intro a s ha
      rw [statements]
      refine Yields.bind (Yields.triv _) fun t s _ => Yields.ite (fun _ => Yields.ok ha) fun _ => ?_
      refine Yields.bind (P := fun e => rankedStmts [e] = true) (Yields.ite (fun _ => ?_) fun _ => ?_) fun e _ he =>
        Yields.bind (Yields.triv _) fun _ _ _ =>
          Yields.ite (fun _ => ih.statements _ _ (rankedStmts_append ha he)) fun _ => Yields.fail
      · exact Yields.bind (Yields.triv _) fun _ _ _ => Yields.bind (ih.expr 0 _ (by omega)) fun e _ he => Yields.ok (ranked_ret he)
      · intro e s h
        exact ranked_stmt (ih.expr 0 _ (by omega) e s h)
    · intro k a b s hk ha
      rw [messages]
      refine Yields.bind (Yields.triv _) fun t s _ => Yields.ite (fun _ => ?_) fun _ =>
        Yields.ite (fun _ => Yields.fail) fun _ => Yields.ok ha
      refine Yields.bind (Yields.triv _) fun _ _ _ => Yields.bind (ih.message k _ hk) fun m s hm => ?_
      cases m with
      | none =>
        refine Yields.ite (fun h => Yields.ok (by unfold rankedMsgs; rfl)) fun _ => ?_
        exact Yields.bind (Yields.triv _) fun _ _ _ => Yields.ok ha
      | some m => exact ih.messages _ _ _ _ hk (rankedMsgs_append ha (hm m rfl))
    · intro k s hk
      rw [message]
      refine Yields.bind (Yields.triv _) fun _ s _ => Yields.ite (fun _ => Yields.fail) fun hl => ?_
      refine Yields.bind (Yields.triv _) fun u s1 _ => Yields.bind (Yields.triv _) fun la s2 _ =>
        Yields.ite (fun _ => Yields.ok (by intro x hx; cases hx)) fun h1 => Yields.ite (fun h2 => ?_) fun _ => ?_
      · refine Yields.bind (ih.expr 2 _ (by omega)) fun a _ ha => Yields.ok ?_
        intro x hx
        cases hx
        have hk1 : k ≤ 1 := by
          by_cases h : k = 2
          · exact absurd ⟨h, h2.1, h2.2⟩ h1
          · omega
        unfold rankedMsgs
        rw [ha, decide_eq_true hk1]
        unfold rankedMsgs
        rfl
      · refine Yields.bind (Yields.triv _) fun _ s _ => Yields.ite (fun _ => Yields.ite (fun _ => ?_) fun hk0 =>
          Yields.ite (fun _ => ?_) fun hv => ?_) fun _ => ?_
        · exact Yields.ok (by intro x hx; cases hx)
        · intro a s h; cases h
        · have : k = 0 := by omega
          subst this
          refine Yields.bind (Yields.triv _) fun _ _ _ => ih.keywords _ _ _ (by simp) (by simp) ?_ (by unfold rankedArgs; rfl)
          unfold msgMax at hv
          unfold partsLen
          simp only [List.map_cons, List.map_nil, List.sum_cons, List.sum_nil]
          omega
        · refine Yields.ok ?_
          intro x hx
          cases hx
          unfold rankedMsgs rankedMsgs
          rfl
    · intro ps as s hne hlen hsum has
      rw [keywords]
      refine Yields.bind (ih.expr 1 _ (by omega)) fun a s ha => Yields.bind (Yields.triv _) fun _ s _ => ?_
      have has' := rankedArgs_append has ha
      refine Yields.ite (fun _ => Yields.ok ?_) fun _ => Yields.ite (fun _ => Yields.ite (fun _ => Yields.fail) fun _ =>
        Yields.ite (fun _ => ?_) fun hv => ?_) fun _ => ih.keywords _ _ _ hne (by simp; omega) hsum has'
      · intro x hx
        cases hx
        unfold rankedMsgs
        have hle : ps.length ≤ (as ++ [a]).length := by simp; exact hlen
        have hs : (ps.map (·.length + 1)).sum ≤ 255 := hsum
        rw [has', decide_eq_true hle, decide_eq_true hs]
        unfold rankedMsgs
        cases ps with
        | nil => exact absurd rfl hne
        | cons => rfl
      · intro a s h; cases h
      · refine Yields.bind (Yields.triv _) fun _ _ _ => ih.keywords _ _ _ (by simp) (by simp; omega) ?_ has'
        unfold partsLen at hv ⊢
        unfold msgMax at hv
        rw [List.map_append, List.sum_append]
        simp only [List.map_cons, List.map_nil, List.sum_cons, List.sum_nil]
        omega

theorem program_ranked {d : Dict} (n : Nat) : ∀ a s, rankedStmts a = true →
    Yields (program d n a s) fun es => rankedStmts es = true := by
  induction n with
  | zero => intro a s _ b s' h; cases h
  | succ n ih =>
    intro a s ha
    rw [program]
    refine Yields.bind (Yields.triv _) fun t s _ => Yields.ite (fun _ => ?_) fun _ => ?_
    · exact Yields.bind (Yields.triv _) fun _ _ _ => Yields.ok ha
    refine Yields.bind (P := fun e => rankedStmts [e] = true) (Yields.ite (fun _ => ?_) fun _ => ?_) fun e _ he =>
      Yields.bind (Yields.triv _) fun _ _ _ =>
        Yields.ite (fun _ => ih _ _ (rankedStmts_append ha he)) fun _ => Yields.fail
    · exact Yields.bind (Yields.triv _) fun _ _ _ => Yields.bind ((allRanked n).expr 0 _ (by omega)) fun e _ he => Yields.ok (ranked_ret he)
    · intro e s h
      exact ranked_stmt ((allRanked n).expr 0 _ (by omega) e s h)

end Verif.Model.Parser
