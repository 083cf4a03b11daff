import Verif.Lemmas.ProgramMain

/-!
# Lemmas: the world at the start; a way of interning texts
-/

namespace Verif.Model.Program
open Verif.Model.Interp
open Verif.Spec.Program (Words V Frame)

variable {I : List UInt8 → Name} {W : Words}

theorem getp_table (hI : Function.Injective I) : ∀ (ops : List (Text × Native)) (base : Nat), (ops.map Prod.fst).Nodup →
    ∀ p ∈ ops, ∃ j, ops[j]? = some p ∧ getp (table I base ops) (I p.1) = some (base + j)
  | q :: ops, base, hn, p, hp => by
    simp only [List.map_cons, List.nodup_cons] at hn
    rcases List.mem_cons.1 hp with rfl | hp
    · exact ⟨0, rfl, by simp only [table, getp, if_true, Nat.add_zero]⟩
    · obtain ⟨j, h1, h2⟩ := getp_table hI ops (base + 1) hn.2 p hp
      refine ⟨j + 1, by simpa using h1, ?_⟩
      have hne : ¬ I q.1 = I p.1 := fun h => hn.1 (by rw [hI h]; exact List.mem_map_of_mem hp)
      simp only [table, getp, hne, if_false, h2]
      congr 1
      omega

theorem knows_start (hI : Function.Injective I) {ops : List (Text × Native)} {p b : Nat} (hn : (ops.map Prod.fst).Nodup) (hl : ops.length ≤ 20)
    (hb : 20 ≤ b ∧ b ≤ 60) (hp : (startObj I W p).meths = table I b ops)
    (hf : ∀ j < 20, startObj I W (b + j) = opObj ops j) : ∀ q ∈ ops, Knows (start I W) p (I q.1) q.2 := by
  intro q hq
  obtain ⟨j, h1, h2⟩ := getp_table hI ops b hn q hq
  have hj : j < 20 := by
    obtain ⟨h, _⟩ := List.getElem?_eq_some_iff.1 h1
    omega
  refine ⟨b + j, ?_, show b + j < 80 by omega, show b + j ≠ 3 by omega, ?_⟩
  · show getp (startObj I W p).meths _ = _
    rw [hp]; exact h2
  · show (startObj I W (b + j)).val = _
    rw [hf j hj]
    simp only [opObj, h1]

theorem getp_others (hI : Function.Injective I) (k : List UInt8) : ∀ l : List (List UInt8),
    getp (l.map fun t => (I t, objectP)) (I k) = if k ∈ l then some objectP else none
  | [] => rfl
  | t :: l => by
    simp only [List.map_cons, getp, getp_others hI k l, List.mem_cons]
    by_cases h : k = t
    · subst h; simp only [if_true, true_or]
    · have h' : ¬ I t = I k := fun e => h (hI e).symm
      simp only [h', if_false, h, false_or]

/-- The world at the start knows what the programs need, if no two messages of a prototype have the same name. -/
theorem world_start (hI : Function.Injective I) (h1 : ((numOps W).map Prod.fst).Nodup) (h2 : ((boolOps W).map Prod.fst).Nodup)
    (h3 : ((codeOps W).map Prod.fst).Nodup) : World I W (start I W) where
  flow := rfl
  sandbox := rfl
  deser := rfl
  stack := rfl
  recursion := rfl
  ctxs := rfl
  size := by show 13 ≤ 80; omega
  world := rfl
  yes := rfl
  no := rfl
  numbers := knows_start hI h1 (by simp [numOps]) (b := 20) (by omega) rfl fun j hj => by
    unfold startObj
    rw [if_pos (by omega)]
    congr 1
    omega
  booleans := knows_start hI h2 (by simp [boolOps]) (b := 40) (by omega) rfl fun j hj => by
    unfold startObj
    rw [if_neg (by omega), if_pos (by omega)]
    congr 1
    omega
  blocks := knows_start hI h3 (by simp [codeOps]) (b := 60) (by omega) rfl fun j hj => by
    unfold startObj
    rw [if_neg (by omega), if_neg (by omega), if_pos (by omega)]
    congr 1
    omega
  globals := by
    intro k
    have hp : ((start I W).obj worldO).props = (I W.yes, trueO) :: (I W.no, falseO) :: W.others.map fun t => (I t, objectP) := rfl
    rw [hp]
    simp only [getp, getp_others hI, Spec.Program.globals]
    by_cases e1 : k = W.yes
    · subst e1
      simp only [if_true]
      exact ⟨trueO, rfl, rfl⟩
    · have e1' : ¬ I W.yes = I k := fun e => e1 (hI e).symm
      simp only [e1, e1', if_false]
      by_cases e2 : k = W.no
      · subst e2
        simp only [if_true]
        exact ⟨falseO, rfl, rfl⟩
      · have e2' : ¬ I W.no = I k := fun e => e2 (hI e).symm
        simp only [e2, e2', if_false]
        by_cases e3 : k ∈ W.others
        · simp only [e3, if_true]
          exact ⟨objectP, rfl, trivial⟩
        · simp only [e3, if_false]

/-! ### A way of interning texts -/

/-- A number for each text. -/
def code : List UInt8 → Nat
  | [] => 0
  | b :: t => b.toNat + 1 + 257 * code t

theorem code_inj : ∀ {a b : List UInt8}, code a = code b → a = b
  | [], [], _ => rfl
  | [], b :: t, h => by simp only [code] at h; omega
  | b :: t, [], h => by simp only [code] at h; omega
  | a :: s, b :: t, h => by
    simp only [code] at h
    have ha := a.toNat_lt
    have hb := b.toNat_lt
    have h1 : a.toNat = b.toNat := by omega
    have h2 : code s = code t := by omega
    rw [UInt8.toNat_inj.1 h1, code_inj h2]

/-- The words the interpreter uses get its numbers, the others larger ones. -/
def intern (W : Words) (t : List UInt8) : Nat :=
  if t = W.me then 0 else if t = W.my then 1 else if t = W.task then 2 else 1000 + code t

theorem intern_names (W : Words) (h1 : W.me ≠ W.my) (h2 : W.me ≠ W.task) (h3 : W.my ≠ W.task) : Names (intern W) W where
  inj a b h := by
    have h : (intern W a : Nat) = intern W b := h
    unfold intern at h
    repeat' split at h
    all_goals first
      | (exfalso; omega)
      | exact (‹a = _›).trans (‹b = _›).symm
      | exact code_inj (by omega)
  me := if_pos rfl
  my := by unfold intern; rw [if_neg h1.symm, if_pos rfl]; rfl
  task := by unfold intern; rw [if_neg h2.symm, if_neg h3.symm, if_pos rfl]; rfl

end Verif.Model.Program
