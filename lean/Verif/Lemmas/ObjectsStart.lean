import Verif.Lemmas.ObjectsMain
import Verif.Lemmas.ProgramStart

/-!
# Lemmas: the world at the start; reading interned texts back
-/

namespace Verif.Model.Objects
open Verif.Model.Interp
open Verif.Model.Program (Knows table opObj boolOps getp_table code intern)
open Verif.Spec.Objects (Words V Frame)

variable {I : List UInt8 → Name} {W : Words}

theorem knows_start (hI : Function.Injective I) {ops : List (Text × Native)} {p b : Nat} (hn : (ops.map Prod.fst).Nodup) (hl : ops.length ≤ 20)
    (hb : 20 ≤ b ∧ b ≤ 120) (hp : (startObj I W p).meths = table I b ops)
    (hf : ∀ j < 20, startObj I W (b + j) = opObj ops j) : ∀ q ∈ ops, Knows (start I W) p (I q.1) q.2 := by
  intro q hq
  obtain ⟨j, h1, h2⟩ := getp_table hI ops b hn q hq
  have hj : j < 20 := by
    obtain ⟨h, _⟩ := List.getElem?_eq_some_iff.1 h1
    omega
  refine ⟨b + j, ?_, show b + j < 140 by omega, show b + j ≠ 3 by omega, ?_⟩
  · show getp (startObj I W p).meths _ = _
    rw [hp]; exact h2
  · show (startObj I W (b + j)).val = _
    rw [hf j hj]
    simp only [opObj, h1]

theorem getp_others (hI : Function.Injective I) (x : Nat) (k : List UInt8) : ∀ l : List (List UInt8),
    getp (l.map fun t => (I t, x)) (I k) = if k ∈ l then some x else none
  | [] => rfl
  | t :: l => by
    simp only [List.map_cons, getp, getp_others hI x k l, List.mem_cons]
    by_cases h : k = t
    · subst h; simp only [if_true, true_or]
    · have h' : ¬ I t = I k := fun e => h (hI e).symm
      simp only [h', if_false, h, false_or]

/-- The world at the start knows what the programs need, if no two messages of a prototype have the same name. -/
theorem world_start (hI : Function.Injective I) (h1 : ((numOps W).map Prod.fst).Nodup) (h2 : ((boolOps W.toWords).map Prod.fst).Nodup)
    (h3 : ((codeOps W).map Prod.fst).Nodup) (h4 : ((objOps W).map Prod.fst).Nodup) (h5 : ((strOps W).map Prod.fst).Nodup)
    (h6 : ((arrOps W).map Prod.fst).Nodup) : World I W (start I W) where
  flow := rfl
  sandbox := rfl
  deser := rfl
  stack := rfl
  recursion := rfl
  ctxs := rfl
  size := by show 13 ≤ 140; omega
  world := rfl
  yes := rfl
  no := rfl
  nothing := rfl
  root := rfl
  list := rfl
  numbers := knows_start hI h1 (by simp [numOps, Program.numOps]) (b := 20) (by omega) rfl fun j hj => by
    unfold startObj
    rw [if_pos (by omega)]
    congr 1
    omega
  booleans := knows_start hI h2 (by simp [boolOps]) (b := 40) (by omega) rfl fun j hj => by
    unfold startObj
    rw [if_neg (by omega), if_pos (by omega)]
    congr 1
    omega
  blocks := knows_start hI h3 (by simp [codeOps, Program.codeOps]) (b := 60) (by omega) rfl fun j hj => by
    unfold startObj
    rw [if_neg (by omega), if_neg (by omega), if_pos (by omega)]
    congr 1
    omega
  objects := knows_start hI h4 (by simp [objOps]) (b := 80) (by omega) rfl fun j hj => by
    unfold startObj
    rw [if_neg (by omega), if_neg (by omega), if_neg (by omega), if_pos (by omega)]
    congr 1
    omega
  texts := knows_start hI h5 (by simp [strOps]) (b := 100) (by omega) rfl fun j hj => by
    unfold startObj
    rw [if_neg (by omega), if_neg (by omega), if_neg (by omega), if_neg (by omega), if_pos (by omega)]
    congr 1
    omega
  sequences := knows_start hI h6 (by simp [arrOps]) (b := 120) (by omega) rfl fun j hj => by
    unfold startObj
    rw [if_neg (by omega), if_neg (by omega), if_neg (by omega), if_neg (by omega), if_neg (by omega), if_pos (by omega)]
    congr 1
    omega
  globals := by
    intro k
    have hp : ((start I W).obj worldO).props = (I W.yes, trueO) :: (I W.no, falseO) :: (I W.object, objectP) :: (I W.sequence, arrP) ::
      (I W.nothing, nilO) :: W.others.map fun t => (I t, 13) := rfl
    rw [hp]
    simp only [getp, getp_others hI, Spec.Objects.globals]
    by_cases e1 : k = W.yes
    · subst e1
      simp only [if_true]
      exact ⟨trueO, rfl, rfl⟩
    have e1' : ¬ I W.yes = I k := fun e => e1 (hI e).symm
    simp only [e1, e1', if_false]
    by_cases e2 : k = W.no
    · subst e2
      simp only [if_true]
      exact ⟨falseO, rfl, rfl⟩
    have e2' : ¬ I W.no = I k := fun e => e2 (hI e).symm
    simp only [e2, e2', if_false]
    by_cases e3 : k = W.object
    · subst e3
      simp only [if_true]
      exact ⟨objectP, rfl, rfl⟩
    have e3' : ¬ I W.object = I k := fun e => e3 (hI e).symm
    simp only [e3, e3', if_false]
    by_cases e4 : k = W.sequence
    · subst e4
      simp only [if_true]
      exact ⟨arrP, rfl, rfl⟩
    have e4' : ¬ I W.sequence = I k := fun e => e4 (hI e).symm
    simp only [e4, e4', if_false]
    by_cases e5 : k = W.nothing
    · subst e5
      simp only [if_true]
      exact ⟨nilO, rfl, rfl⟩
    have e5' : ¬ I W.nothing = I k := fun e => e5 (hI e).symm
    simp only [e5, e5', if_false]
    by_cases e6 : k ∈ W.others
    · simp only [e6, if_true]
      exact ⟨13, rfl, trivial⟩
    · simp only [e6, if_false]

/-! ### Reading interned texts back -/

/-- The text with this number. -/
def uncode : Nat → Nat → List UInt8
  | 0, _ => []
  | f + 1, n => if n = 0 then [] else UInt8.ofNat ((n - 1) % 257) :: uncode f ((n - 1) / 257)

theorem uncode_code : ∀ (t : List UInt8) (f : Nat), code t ≤ f → uncode f (code t) = t
  | [], 0, _ => rfl
  | [], f + 1, _ => rfl
  | b :: t, 0, h => by simp only [code] at h; omega
  | b :: t, f + 1, h => by
    simp only [code] at h
    have hb := b.toNat_lt
    have e1 : (code (b :: t) - 1) % 257 = b.toNat := by simp only [code]; omega
    have e2 : (code (b :: t) - 1) / 257 = code t := by simp only [code]; omega
    have e3 : ¬ code (b :: t) = 0 := by simp only [code]; omega
    rw [uncode, if_neg e3, e1, e2, uncode_code t f (by omega)]
    congr 1
    simp

/-- The text of an interned text. -/
def unintern (W : Words) (k : Nat) : Option (List UInt8) :=
  if k = 0 then some W.me else if k = 1 then some W.my else if k = 2 then some W.task else some (uncode (k - 1000) (k - 1000))

theorem unintern_intern (W : Words) (t : List UInt8) : unintern W (intern W.toWords t) = some t := by
  unfold intern
  by_cases h1 : t = W.me
  · rw [if_pos h1, h1]; rfl
  rw [if_neg h1]
  by_cases h2 : t = W.my
  · rw [if_pos h2, h2]; rfl
  rw [if_neg h2]
  by_cases h3 : t = W.task
  · rw [if_pos h3, h3]; rfl
  rw [if_neg h3]
  unfold unintern
  rw [if_neg (by omega), if_neg (by omega), if_neg (by omega), Nat.add_sub_cancel_left, uncode_code t _ (Nat.le_refl _)]

end Verif.Model.Objects
