import Verif.Model.Blob
import Verif.Spec.Blob
import Verif.Lemmas.Seq
import Verif.Lemmas.Lines

/-!
# Lemmas: blobs
-/

namespace Verif.Model.Blob
open Verif.Spec.Blob

theorem bind_ok {α β : Type} (a : α) (f : α → Out β) : (Out.ok a).bind f = f a := rfl

/-- The byte of a number that fits. -/
def byte (v : Int) : UInt8 := UInt8.ofNat (v % 256).toNat

theorem toByte_fits {v : Int} (h : Fits v) : toByte v = .ok (byte v) := by
  rw [toByte, if_pos (show -128 ≤ v ∧ v ≤ 127 from h)]; rfl

theorem ofByte_byte {v : Int} (h : Fits v) : ofByte (byte v) = v := by
  obtain ⟨h1, h2⟩ := h
  have e : (byte v).toNat = (v % 256).toNat := by
    unfold byte
    rw [UInt8.toNat_ofNat', Nat.mod_eq_of_lt]
    omega
  unfold ofByte
  rw [e]
  split <;> omega

theorem seqFrom_rep (l : List Int) : ∀ {s : Seq Int} {r : List Int}, Seq.Rep s [] r →
    ∃ s', seqFrom s l = .ok s' ∧ Seq.Rep s' [] (r ++ l) := by
  induction l with
  | nil => intro s r h; exact ⟨s, rfl, by simpa using h⟩
  | cons v l ih =>
    intro s r h
    obtain ⟨s1, h1, r1⟩ := Seq.push_rep h v
    obtain ⟨s2, h2, r2⟩ := ih r1
    exact ⟨s2, by rw [seqFrom, h1, bind_ok, h2], by simpa using r2⟩

theorem fillLoop_eq {s : Seq Int} {l : List Int} (hr : Seq.Rep s [] l) (hf : ∀ v ∈ l, Fits v) (k : Nat) :
    ∀ (i : Nat) (mem : Text), i + k = l.length → l.length ≤ mem.length →
    fillLoop s mem k i = .ok (mem.take i ++ ((l.drop i).map byte ++ mem.drop (i + k))) := by
  induction k with
  | zero =>
    intro i mem hi _
    rw [fillLoop, List.drop_eq_nil_of_le (by omega)]
    simp
  | succ k ih =>
    intro i mem hi hm
    have hil : i < l.length := by omega
    have hread := Seq.read_elem hr hil
    simp only [List.length_nil, Nat.zero_add] at hread
    have e1 : s.read i = .ok l[i] := by simpa using hread
    rw [fillLoop, e1, bind_ok, toByte_fits (hf _ (List.getElem_mem hil)), bind_ok, store, if_pos (by omega), bind_ok,
      ih (i + 1) _ (by omega) (by simpa using hm)]
    congr 1
    rw [List.drop_eq_getElem_cons hil, List.take_succ_eq_append_getElem (by simp; omega), List.drop_set_of_lt (by omega),
      show i + 1 + k = i + (k + 1) by omega]
    simp [List.take_set_of_le, -List.map_drop]
    rw [List.drop_eq_getElem_cons hil, List.map_cons]
    rfl

theorem fill_eq {s : Seq Int} {l : List Int} (hr : Seq.Rep s [] l) (hf : ∀ v ∈ l, Fits v) (mem : Text) (h : l.length ≤ mem.length) :
    fill mem s = .ok (l.map byte ++ mem.drop l.length) := by
  have hh : s.head = l.length := by have := hr.head_eq; simpa using this
  rw [fill, hh, fillLoop_eq hr hf l.length 0 mem (by omega) h]
  simp

theorem fills_eq (ls : List (List Int)) : ∀ (mem : Text), (∀ l ∈ ls, l.length ≤ mem.length ∧ ∀ v ∈ l, Fits v) →
    ∃ mem', fills mem ls = .ok mem' ∧ mem'.length = mem.length ∧ mem'.map ofByte = filledAll (mem.map ofByte) ls := by
  induction ls with
  | nil => intro mem _; exact ⟨mem, rfl, rfl, rfl⟩
  | cons l ls ih =>
    intro mem h
    obtain ⟨h1, h2⟩ := h l (List.mem_cons_self ..)
    obtain ⟨s, g1, g2⟩ := seqFrom_rep l Seq.rep_new
    rw [List.nil_append] at g2
    have g3 := fill_eq g2 h2 mem h1
    have hlen : (l.map byte ++ mem.drop l.length).length = mem.length := by simp; omega
    obtain ⟨m, k1, k2, k3⟩ := ih (l.map byte ++ mem.drop l.length) (by
      intro x hx
      rw [hlen]
      exact h x (List.mem_cons_of_mem _ hx))
    refine ⟨m, by rw [fills, g1, bind_ok, g3, bind_ok, k1], by omega, ?_⟩
    rw [k3]
    simp only [filledAll, List.foldl_cons, filled]
    congr 1
    rw [List.map_append, List.map_map, List.map_drop]
    congr 1
    rw [List.map_congr_left (f := ofByte ∘ byte) (g := id) (fun v hv => ofByte_byte (h2 v hv)), List.map_id]

theorem readLoop_eq (mem : Text) (k : Nat) : ∀ (p : Nat) (dst : Seq Int), 1 ≤ p → p + k ≤ mem.length + 1 →
    readLoop mem dst k p = seqFrom dst (part (mem.map ofByte) p k) := by
  induction k with
  | zero => intro p dst _ _; simp [readLoop, part, seqFrom]
  | succ k ih =>
    intro p dst h1 h2
    have hp : p - 1 < mem.length := by omega
    have e : part (mem.map ofByte) p (k + 1) = ofByte mem[p - 1] :: part (mem.map ofByte) (p + 1) k := by
      unfold part
      rw [List.drop_eq_getElem_cons (by simpa using hp), List.take_succ_cons]
      simp only [List.getElem_map]
      rw [show p - 1 + 1 = p + 1 - 1 by omega]
    rw [readLoop, if_neg (by omega), show ((p : Int) - 1).toNat = p - 1 by omega]
    rw [show mem[p - 1]? = some mem[p - 1] by simp [hp]]
    simp only
    rw [e, seqFrom]
    have := fun d => ih (p + 1) d (by omega) (by omega)
    rw [show ((p + 1 : Nat) : Int) = (p : Int) + 1 by omega] at this
    simp only [this]

end Verif.Model.Blob
