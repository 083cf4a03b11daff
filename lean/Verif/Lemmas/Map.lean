import Verif.Model.Map
import Verif.Lemmas.Seq

/-! # Representation lemmas for the doubly linked property list -/

namespace Verif.Model.PMap

variable {κ ν : Type} [DecidableEq κ] (hash : κ → Nat)

/-- First address of a list, or the address after it. -/
def headOr (ps : List Nat) (nxt : Option Nat) : Option Nat :=
  match ps with
  | [] => nxt
  | p :: _ => some p

theorem headOr_nil (nxt) : headOr [] nxt = nxt := rfl
theorem headOr_cons (p ps nxt) : headOr (p :: ps) nxt = some p := rfl

/-- Last address of a list, or the address before it. -/
def lastOr (ps : List Nat) (prev : Option Nat) : Option Nat :=
  match ps with
  | [] => prev
  | p :: ps => lastOr ps (some p)

/-- The cells `ps` hold the bindings `l`, linked in order; `prev`/`nxt` are the outer neighbours. -/
def Seg (h : Nat → Option (Item κ ν)) : Option Nat → List Nat → List (κ × ν) → Option Nat → Prop
  | _, [], [], _ => True
  | prev, p :: ps, (k, v) :: l, nxt =>
    h p = some ⟨hash k, k, v, headOr ps nxt, prev⟩ ∧ Seg h (some p) ps l nxt
  | _, _, _, _ => False

omit [DecidableEq κ] in
theorem seg_length {h : Nat → Option (Item κ ν)} {prev ps l nxt} (hs : Seg hash h prev ps l nxt) :
    ps.length = l.length := by
  induction ps generalizing prev l with
  | nil => cases l <;> simp_all [Seg]
  | cons p ps ih =>
    cases l with
    | nil => simp [Seg] at hs
    | cons kv l => simp [Seg] at hs; simp [ih hs.2]

omit [DecidableEq κ] in
theorem seg_append {h : Nat → Option (Item κ ν)} {A B : List Nat} {la lb : List (κ × ν)} {prev nxt}
    (hl : A.length = la.length) :
    Seg hash h prev (A ++ B) (la ++ lb) nxt ↔
      Seg hash h prev A la (headOr B nxt) ∧ Seg hash h (lastOr A prev) B lb nxt := by
  induction A generalizing prev la with
  | nil =>
    cases la with
    | nil => simp [Seg, lastOr]
    | cons _ _ => simp at hl
  | cons a A ih =>
    cases la with
    | nil => simp at hl
    | cons kv la =>
      obtain ⟨k, v⟩ := kv
      simp only [List.cons_append, Seg, lastOr]
      rw [ih (by simpa using hl)]
      have : headOr (A ++ B) nxt = headOr A (headOr B nxt) := by cases A <;> rfl
      rw [this, and_assoc]

omit [DecidableEq κ] in
theorem seg_frame {h : Nat → Option (Item κ ν)} {q : Nat} {x} {ps : List Nat} {l : List (κ × ν)} {prev nxt}
    (hq : q ∉ ps) : Seg hash (upd h q x) prev ps l nxt ↔ Seg hash h prev ps l nxt := by
  induction ps generalizing prev l with
  | nil => cases l <;> simp [Seg]
  | cons p ps ih =>
    cases l with
    | nil => simp [Seg]
    | cons kv l =>
      simp only [Seg]
      rw [ih (by simp_all)]
      have : p ≠ q := by simp_all; omega
      simp [upd, this]

omit [DecidableEq κ] in
theorem seg_set_prev {h : Nat → Option (Item κ ν)} {b : Nat} {B : List Nat} {l : List (κ × ν)} {prev nxt} {it}
    (hs : Seg hash h prev (b :: B) l nxt) (hn : (b :: B).Nodup) (hb : h b = some it) (q : Option Nat) :
    Seg hash (upd h b (some { it with prev := q })) q (b :: B) l nxt := by
  cases l with
  | nil => simp [Seg] at hs
  | cons kv l =>
    obtain ⟨k, v⟩ := kv
    simp only [Seg] at hs ⊢
    refine ⟨?_, (seg_frame hash (by simp_all)).mpr hs.2⟩
    rw [hb] at hs
    have := Option.some.inj hs.1
    simp [upd, this]

omit [DecidableEq κ] in
theorem seg_set_next {h : Nat → Option (Item κ ν)} {a : Nat} {A : List Nat} {l : List (κ × ν)} {prev nxt} {it}
    (hs : Seg hash h prev (A ++ [a]) l nxt) (hn : (A ++ [a]).Nodup) (ha : h a = some it) (q : Option Nat) :
    Seg hash (upd h a (some { it with next := q })) prev (A ++ [a]) l q := by
  have hlen := seg_length hash hs
  rcases List.eq_nil_or_concat l with hl | ⟨l', kv, hl⟩
  · simp [hl] at hlen
  · subst hl
    simp only [List.concat_eq_append] at *
    have hlen' : A.length = l'.length := by simpa using hlen
    rw [seg_append hash hlen'] at hs ⊢
    have hna : a ∉ A := by
      intro hm
      have := List.nodup_append.mp hn
      exact this.2.2 a hm a (by simp) rfl
    refine ⟨(seg_frame hash hna).mpr hs.1, ?_⟩
    have h2 := hs.2
    simp only [Seg, and_true] at h2 ⊢
    rw [ha] at h2
    have := Option.some.inj h2
    simp [upd, this, headOr]

theorem walk_none {h : Nat → Option (Item κ ν)} {ps : List Nat} {l : List (κ × ν)} {prev} (k : κ)
    (hs : Seg hash h prev ps l none) (hk : ∀ kv ∈ l, kv.1 ≠ k) {fuel : Nat} (hf : ps.length ≤ fuel) :
    walk hash h k fuel (headOr ps none) = .ok none := by
  induction ps generalizing prev l fuel with
  | nil => cases fuel <;> simp [headOr, walk]
  | cons p ps ih =>
    cases l with
    | nil => simp [Seg] at hs
    | cons kv l =>
      obtain ⟨k', v⟩ := kv
      simp only [Seg] at hs
      cases fuel with
      | zero => simp at hf
      | succ fuel =>
        have hne : k' ≠ k := hk (k', v) (by simp)
        simp only [headOr, walk, deref, hs.1, Out.ok_bind]
        rw [if_neg (by simp [hne])]
        exact ih hs.2 (fun kv hkv => hk kv (by simp [hkv])) (by simpa using hf)

theorem walk_some {h : Nat → Option (Item κ ν)} {A B : List Nat} {p : Nat} {la lb : List (κ × ν)} {prev}
    {k : κ} {v : ν} (hl : A.length = la.length)
    (hs : Seg hash h prev (A ++ p :: B) (la ++ (k, v) :: lb) none)
    (hk : ∀ kv ∈ la, kv.1 ≠ k) {fuel : Nat} (hf : (A ++ p :: B).length ≤ fuel) :
    walk hash h k fuel (headOr (A ++ p :: B) none) = .ok (some p) := by
  induction A generalizing prev la fuel with
  | nil =>
    cases la with
    | cons _ _ => simp at hl
    | nil =>
      cases fuel with
      | zero => simp at hf
      | succ fuel =>
        simp only [List.nil_append, Seg] at hs
        simp [headOr, walk, deref, hs.1]
  | cons a A ih =>
    cases la with
    | nil => simp at hl
    | cons kv la =>
      obtain ⟨k', v'⟩ := kv
      cases fuel with
      | zero => simp at hf
      | succ fuel =>
        simp only [List.cons_append, Seg] at hs
        have hne : k' ≠ k := hk (k', v') (by simp)
        simp only [List.cons_append, headOr, walk, deref, hs.1, Out.ok_bind]
        rw [if_neg (by simp [hne])]
        exact ih (by simpa using hl) hs.2 (fun kv hkv => hk kv (by simp [hkv])) (by simpa using hf)

/-- `m` holds the bindings `l`, most recent first. -/
structure RepAt (m : PMap κ ν) (ps : List Nat) (l : List (κ × ν)) : Prop where
  seg : Seg hash m.heap none ps l none
  nodup : ps.Nodup
  head_eq : m.head = headOr ps none
  size_eq : m.size = l.length
  lt : ∀ p ∈ ps, p < m.fresh
  len_le : ps.length ≤ m.fresh
  keys : (l.map Prod.fst).Nodup

def Rep (m : PMap κ ν) (l : List (κ × ν)) : Prop := ∃ ps, RepAt hash m ps l

omit [DecidableEq κ] in
theorem rep_new : Rep hash (new : PMap κ ν) [] :=
  ⟨[], by simp [Seg], by simp, rfl, rfl, by simp, by simp, by simp⟩

/-- A key either does not occur or splits the list at its only occurrence. -/
theorem key_cases (l : List (κ × ν)) (k : κ) :
    (∀ kv ∈ l, kv.1 ≠ k) ∨ ∃ la v lb, l = la ++ (k, v) :: lb ∧ ∀ kv ∈ la, kv.1 ≠ k := by
  induction l with
  | nil => left; simp
  | cons kv l ih =>
    obtain ⟨k', v⟩ := kv
    by_cases h : k' = k
    · right; exact ⟨[], v, l, by simp [h], by simp⟩
    · rcases ih with ih | ⟨la, v', lb, e, ih⟩
      · left; intro kv hkv
        rcases List.mem_cons.mp hkv with rfl | hkv
        · exact h
        · exact ih kv hkv
      · right
        refine ⟨(k', v) :: la, v', lb, by simp [e], ?_⟩
        intro kv hkv
        rcases List.mem_cons.mp hkv with rfl | hkv
        · exact h
        · exact ih kv hkv

/-- First binding of a key. -/
def lookup (l : List (κ × ν)) (k : κ) : Option ν := (l.find? (fun kv => kv.1 = k)).map Prod.snd

theorem find_rep {m : PMap κ ν} {l : List (κ × ν)} (hr : Rep hash m l) (k : κ) :
    m.find hash k = .ok (lookup l k) := by
  obtain ⟨ps, hr⟩ := hr
  have hlen := seg_length hash hr.seg
  unfold find
  by_cases h0 : m.size = 0
  · have : l = [] := List.length_eq_zero_iff.mp (by rw [← hr.size_eq, h0])
    simp [h0, this, lookup]
  · rw [if_neg h0, hr.head_eq]
    rcases key_cases l k with hk | ⟨la, v, lb, e, hk⟩
    · rw [walk_none hash k hr.seg hk hr.len_le]
      have : lookup l k = none := by
        simp only [lookup, Option.map_eq_none_iff, List.find?_eq_none]
        intro kv hkv; simpa using hk kv hkv
      simp [this]
    · subst e
      obtain ⟨A, B', rfl, hA⟩ : ∃ A B', ps = A ++ B' ∧ A.length = la.length := by
        refine ⟨ps.take la.length, ps.drop la.length, by simp, ?_⟩
        simp at hlen ⊢; omega
      cases B' with
      | nil => simp at hlen; omega
      | cons p B =>
        have hw := walk_some hash hA hr.seg hk hr.len_le
        have hs := ((seg_append hash hA).mp hr.seg).2
        simp only [Seg] at hs
        rw [hw]
        have : lookup (la ++ (k, v) :: lb) k = some v := by
          simp only [lookup, List.find?_append]
          have : la.find? (fun kv => kv.1 = k) = none := by
            simp only [List.find?_eq_none]; intro kv hkv; simpa using hk kv hkv
          simp [this]
        simp [deref, hs.1, this]

omit [DecidableEq κ] in
theorem lastOr_append (A : List Nat) (a : Nat) (prev) : lastOr (A ++ [a]) prev = some a := by
  induction A generalizing prev with
  | nil => rfl
  | cons _ _ ih => simp [lastOr, ih]

omit [DecidableEq κ] in
theorem unlink_rep {m : PMap κ ν} {A B : List Nat} {p : Nat} {la lb : List (κ × ν)} {k : κ} {v : ν}
    (hA : A.length = la.length) (hr : RepAt hash m (A ++ p :: B) (la ++ (k, v) :: lb)) :
    ∃ m', m.unlink p = .ok m' ∧ RepAt hash m' (A ++ B) (la ++ lb) ∧ m'.fresh = m.fresh := by
  have hs := (seg_append hash hA).mp hr.seg
  obtain ⟨hsA, hsp⟩ := hs
  simp only [Seg, headOr_cons] at hsA hsp
  obtain ⟨hp, hsB⟩ := hsp
  have hnd := hr.nodup
  have hndA : A.Nodup := (List.nodup_append.mp hnd).1
  have hndpB : (p :: B).Nodup := (List.nodup_append.mp hnd).2.1
  have hdisj := (List.nodup_append.mp hnd).2.2
  have hpA : p ∉ A := fun h => hdisj p h p (by simp) rfl
  have hpB : p ∉ B := (List.nodup_cons.mp hndpB).1
  have hndB : B.Nodup := (List.nodup_cons.mp hndpB).2
  have hAB : ∀ a ∈ A, a ∉ B := fun a ha hb => hdisj a ha a (by simp [hb]) rfl
  have hndAB : (A ++ B).Nodup := List.nodup_append.mpr ⟨hndA, hndB, fun a ha b hb e => hAB a ha (e ▸ hb)⟩
  have hsize := hr.size_eq
  have hkeys := hr.keys
  have hkeys' : ((la ++ lb).map Prod.fst).Nodup := by
    simp only [List.map_append, List.map_cons] at hkeys ⊢
    exact List.Nodup.sublist (List.Sublist.append (List.Sublist.refl _) (List.sublist_cons_self _ _)) hkeys
  have hlt : ∀ q ∈ A ++ B, q < m.fresh := by
    intro q hq; apply hr.lt; simp at hq ⊢; rcases hq with h | h <;> simp [h]
  have hle : (A ++ B).length ≤ m.fresh := by
    have := hr.len_le; simp at this ⊢; omega
  have hsz : m.size - 1 = (la ++ lb).length := by simp at hsize ⊢; omega
  have hhead : (if m.head = some p then headOr B none else m.head) = headOr (A ++ B) none := by
    rw [hr.head_eq]
    cases A with
    | nil => simp [headOr]
    | cons a A =>
      have : a ≠ p := fun e => hpA (by simp [e])
      simp [headOr, this]
  rcases List.eq_nil_or_concat A with hAn | ⟨A', a, hAc⟩
  · subst hAn
    cases B with
    | nil =>
      have e : m.unlink p = .ok { m with
          heap := upd m.heap p none,
          head := (if m.head = some p then headOr [] none else m.head), size := m.size - 1 } := by
        simp [unlink, deref, hp, headOr, lastOr]
      refine ⟨_, e, ⟨?_, hndAB, hhead, hsz, hlt, hle, hkeys'⟩, rfl⟩
      have : lb = [] := by cases lb <;> simp_all [Seg]
      have h2 : la = [] := by simpa using hA.symm
      simp [this, h2, Seg]
    | cons b B =>
      obtain ⟨itb, hitb⟩ : ∃ it, m.heap b = some it := by
        cases lb with
        | nil => simp [Seg] at hsB
        | cons kv lb => exact ⟨_, hsB.1⟩
      have e : m.unlink p = .ok { m with
          heap := upd (upd m.heap b (some { itb with prev := none })) p none,
          head := (if m.head = some p then headOr (b :: B) none else m.head), size := m.size - 1 } := by
        simp [unlink, deref, hp, headOr, lastOr, hitb]
      refine ⟨_, e, ⟨?_, hndAB, hhead, hsz, hlt, hle, hkeys'⟩, rfl⟩
      have h2 : la = [] := by simpa using hA.symm
      subst h2
      simp only [List.nil_append]
      exact (seg_frame hash hpB).mpr (seg_set_prev hash hsB hndB hitb none)
  · rw [List.concat_eq_append] at hAc
    have hlast : lastOr A none = some a := by rw [hAc]; exact lastOr_append A' a none
    rw [hlast] at hp
    obtain ⟨ita, hita⟩ : ∃ it, m.heap a = some it := by
      rcases List.eq_nil_or_concat la with hla | ⟨la', kv, hla⟩
      · simp [hla, hAc] at hA
      · subst hla
        rw [hAc, List.concat_eq_append, seg_append hash (by simpa [hAc] using hA)] at hsA
        exact ⟨_, hsA.2.1⟩
    have haB : a ∉ B := hAB a (by simp [hAc])
    have hap : a ≠ p := fun e => hpA (by simp [hAc, e])
    cases B with
    | nil =>
      have e : m.unlink p = .ok { m with
          heap := upd (upd m.heap a (some { ita with next := none })) p none,
          head := (if m.head = some p then headOr [] none else m.head), size := m.size - 1 } := by
        simp [unlink, deref, hp, headOr, hita]
      refine ⟨_, e, ⟨?_, hndAB, hhead, hsz, hlt, hle, hkeys'⟩, rfl⟩
      have : lb = [] := by cases lb <;> simp_all [Seg]
      subst this
      simp only [List.append_nil]
      refine (seg_frame hash hpA).mpr ?_
      rw [hAc] at hsA hndA ⊢
      exact seg_set_next hash hsA hndA hita none
    | cons b B =>
      obtain ⟨itb, hitb⟩ : ∃ it, m.heap b = some it := by
        cases lb with
        | nil => simp [Seg] at hsB
        | cons kv lb => exact ⟨_, hsB.1⟩
      have hab : a ≠ b := fun e => haB (by simp [e])
      have hita' : upd m.heap b (some { itb with prev := some a }) a = some ita := by
        simp [upd, hab, hita]
      have e : m.unlink p = .ok { m with
          heap := upd (upd (upd m.heap b (some { itb with prev := some a })) a
            (some { ita with next := some b })) p none,
          head := (if m.head = some p then headOr (b :: B) none else m.head), size := m.size - 1 } := by
        simp [unlink, deref, hp, headOr, hitb, hita']
      refine ⟨_, e, ⟨?_, hndAB, hhead, hsz, hlt, hle, hkeys'⟩, rfl⟩
      rw [seg_append hash hA, hlast]
      constructor
      · refine (seg_frame hash hpA).mpr ?_
        have hbA : b ∉ A := fun h => hAB b h (by simp)
        have h1 := (seg_frame hash (x := some { itb with prev := some a }) hbA).mpr hsA
        rw [hAc] at h1 hndA ⊢
        exact seg_set_next hash h1 hndA hita' (some b)
      · refine (seg_frame hash hpB).mpr ((seg_frame hash haB).mpr ?_)
        exact seg_set_prev hash hsB hndB hitb (some a)

/-- The bindings without those of `k`. -/
def without (l : List (κ × ν)) (k : κ) : List (κ × ν) := l.filter (fun kv => kv.1 ≠ k)

theorem without_eq_self {l : List (κ × ν)} {k : κ} (h : ∀ kv ∈ l, kv.1 ≠ k) : without l k = l := by
  simp only [without, List.filter_eq_self]
  intro kv hkv; simpa using h kv hkv

theorem without_split {la lb : List (κ × ν)} {k : κ} {v : ν} (h : ∀ kv ∈ la, kv.1 ≠ k)
    (hn : ((la ++ (k, v) :: lb).map Prod.fst).Nodup) : without (la ++ (k, v) :: lb) k = la ++ lb := by
  have h2 : ∀ kv ∈ lb, kv.1 ≠ k := by
    intro kv hkv e
    simp only [List.map_append, List.map_cons] at hn
    have := (List.nodup_cons.mp (List.nodup_append.mp hn).2.1).1
    exact this (by rw [← e]; exact List.mem_map_of_mem hkv)
  have e1 := without_eq_self h
  have e2 := without_eq_self h2
  simp only [without] at e1 e2 ⊢
  rw [List.filter_append, e1, List.filter_cons, e2]
  simp

theorem delete_rep {m : PMap κ ν} {l : List (κ × ν)} (hr : Rep hash m l) (k : κ) :
    ∃ m', m.delete hash k = .ok m' ∧ Rep hash m' (without l k) := by
  obtain ⟨ps, hr⟩ := hr
  have hlen := seg_length hash hr.seg
  unfold delete
  by_cases h0 : m.size = 0
  · have : l = [] := List.length_eq_zero_iff.mp (by rw [← hr.size_eq, h0])
    subst this
    exact ⟨m, by simp [h0], ps, hr⟩
  · rw [if_neg h0, hr.head_eq]
    rcases key_cases l k with hk | ⟨la, v, lb, e, hk⟩
    · rw [walk_none hash k hr.seg hk hr.len_le, without_eq_self hk]
      exact ⟨m, rfl, ps, hr⟩
    · subst e
      obtain ⟨A, B', rfl, hA⟩ : ∃ A B', ps = A ++ B' ∧ A.length = la.length := by
        refine ⟨ps.take la.length, ps.drop la.length, by simp, ?_⟩
        simp at hlen ⊢; omega
      cases B' with
      | nil => simp at hlen; omega
      | cons p B =>
        rw [walk_some hash hA hr.seg hk hr.len_le, without_split hk hr.keys]
        obtain ⟨m', e, r, _⟩ := unlink_rep hash hA hr
        exact ⟨m', e, _, r⟩

omit [DecidableEq κ] in
theorem add_rep {m : PMap κ ν} {l : List (κ × ν)} (hr : Rep hash m l) {k : κ} (v : ν)
    (hk : ∀ kv ∈ l, kv.1 ≠ k) : ∃ m', m.add hash k v = .ok m' ∧ Rep hash m' ((k, v) :: l) := by
  obtain ⟨ps, hr⟩ := hr
  have hlen := seg_length hash hr.seg
  have hf : m.fresh ∉ ps := fun h => Nat.lt_irrefl _ (hr.lt _ h)
  have hkeys : (((k, v) :: l).map Prod.fst).Nodup := by
    simp only [List.map_cons, List.nodup_cons]
    refine ⟨?_, hr.keys⟩
    intro h
    obtain ⟨kv, h1, h2⟩ := List.mem_map.mp h
    exact hk kv h1 h2
  have hlt : ∀ q ∈ m.fresh :: ps, q < m.fresh + 1 := by
    intro q hq
    rcases List.mem_cons.mp hq with rfl | hq
    · omega
    · have := hr.lt q hq; omega
  have hle := hr.len_le
  unfold add
  by_cases h0 : m.size = 0
  · have : l = [] := List.length_eq_zero_iff.mp (by rw [← hr.size_eq, h0])
    subst this
    have hp : ps = [] := by simpa using hlen
    subst hp
    rw [if_pos h0]
    exact ⟨_, rfl, [m.fresh], ⟨by simp [Seg, upd, headOr], by simp, rfl, by simp [h0], hlt,
      by simp, hkeys⟩⟩
  · rw [if_neg h0, hr.head_eq]
    cases ps with
    | nil => have := hr.size_eq; simp at hlen; omega
    | cons c ps =>
      obtain ⟨itc, hitc⟩ : ∃ it, m.heap c = some it := by
        have := hr.seg
        cases l with
        | nil => simp [Seg] at this
        | cons kv l => exact ⟨_, this.1⟩
      simp only [headOr, deref, hitc, Out.ok_bind]
      refine ⟨_, rfl, m.fresh :: c :: ps, ⟨?_, ?_, rfl, by simp [hr.size_eq], hlt, ?_, hkeys⟩⟩
      · simp only [Seg]
        refine ⟨by simp [upd, headOr], (seg_frame hash hf).mpr ?_⟩
        exact seg_set_prev hash hr.seg hr.nodup hitc (some m.fresh)
      · exact List.nodup_cons.mpr ⟨hf, hr.nodup⟩
      · simp at hle ⊢; omega

theorem put_rep {m : PMap κ ν} {l : List (κ × ν)} (hr : Rep hash m l) (k : κ) (v : ν) :
    ∃ m', m.put hash k v = .ok m' ∧ Rep hash m' ((k, v) :: without l k) := by
  obtain ⟨m1, e1, r1⟩ := delete_rep hash hr k
  obtain ⟨m2, e2, r2⟩ := add_rep hash r1 (k := k) v (by intro kv hkv; simp [without] at hkv; exact hkv.2)
  exact ⟨m2, by simp [put, e1, e2], r2⟩

omit [DecidableEq κ] in
theorem enumLoop_rep {β : Type} {h : Nat → Option (Item κ ν)} {ps : List Nat} {l : List (κ × ν)} {prev}
    (hs : Seg hash h prev ps l none) (f : Item κ ν → β) (g : κ × ν → β)
    (hg : ∀ hk k v n p, f ⟨hk, k, v, n, p⟩ = g (k, v)) {s : Seq β} {pre out : List β} (hrep : s.Rep pre out)
    {fuel : Nat} (hf : ps.length ≤ fuel) :
    ∃ s', enumLoop h f fuel (headOr ps none) s = .ok s' ∧ s'.Rep pre (out ++ l.map g) := by
  induction ps generalizing prev l fuel s out with
  | nil =>
    cases l with
    | nil => cases fuel <;> exact ⟨s, by simp [headOr, enumLoop], by simpa using hrep⟩
    | cons _ _ => simp [Seg] at hs
  | cons p ps ih =>
    cases l with
    | nil => simp [Seg] at hs
    | cons kv l =>
      obtain ⟨k, v⟩ := kv
      cases fuel with
      | zero => simp at hf
      | succ fuel =>
        simp only [Seg] at hs
        obtain ⟨s1, e1, r1⟩ := Seq.push_rep hrep (g (k, v))
        obtain ⟨s2, e2, r2⟩ := ih hs.2 r1 (fuel := fuel) (by simpa using hf)
        refine ⟨s2, ?_, by simpa using r2⟩
        simp only [headOr, enumLoop, deref, hs.1, Out.ok_bind, hg, e1]
        exact e2

omit [DecidableEq κ] in
theorem keys_rep {m : PMap κ ν} {l : List (κ × ν)} (hr : Rep hash m l) :
    ∃ s, m.keys = .ok s ∧ s.Rep [] (l.map Prod.fst) := by
  obtain ⟨ps, hr⟩ := hr
  obtain ⟨s, e, r⟩ := enumLoop_rep hash hr.seg (·.key) Prod.fst (fun _ _ _ _ _ => rfl) Seq.rep_new hr.len_le
  exact ⟨s, by rw [keys, hr.head_eq]; exact e, by simpa using r⟩

omit [DecidableEq κ] in
theorem values_rep {m : PMap κ ν} {l : List (κ × ν)} (hr : Rep hash m l) :
    ∃ s, m.values = .ok s ∧ s.Rep [] (l.map Prod.snd) := by
  obtain ⟨ps, hr⟩ := hr
  obtain ⟨s, e, r⟩ := enumLoop_rep hash hr.seg (·.val) Prod.snd (fun _ _ _ _ _ => rfl) Seq.rep_new hr.len_le
  exact ⟨s, by rw [values, hr.head_eq]; exact e, by simpa using r⟩

omit [DecidableEq κ] in
theorem has_rep {m : PMap κ ν} {l : List (κ × ν)} (hr : Rep hash m l) (same : ν → Bool) :
    m.has same = .ok (l.any (fun kv => same kv.2)) := by
  obtain ⟨ps, hr⟩ := hr
  suffices H : ∀ (ps : List Nat) (l : List (κ × ν)) prev fuel b, Seg hash m.heap prev ps l none → ps.length ≤ fuel →
      hasLoop m.heap same fuel (headOr ps none) b = .ok (b || l.any (fun kv => same kv.2)) by
    rw [has, hr.head_eq, H ps l none m.fresh false hr.seg hr.len_le]; simp
  intro ps
  induction ps with
  | nil =>
    intro l prev fuel b hs hf
    cases l with
    | nil => cases fuel <;> simp [headOr, hasLoop]
    | cons _ _ => simp [Seg] at hs
  | cons p ps ih =>
    intro l prev fuel b hs hf
    cases l with
    | nil => simp [Seg] at hs
    | cons kv l =>
      obtain ⟨k, v⟩ := kv
      cases fuel with
      | zero => simp at hf
      | succ fuel =>
        simp only [Seg] at hs
        simp only [headOr_cons, hasLoop, deref, hs.1, Out.ok_bind]
        rw [ih l _ fuel _ hs.2 (by simpa using hf)]
        cases hsv : same v <;> cases b <;> simp [hsv]

theorem copyLoop_rep {h : Nat → Option (Item κ ν)} {ps : List Nat} {l : List (κ × ν)} {prev}
    (hs : Seg hash h prev ps l none) (hn : (l.map Prod.fst).Nodup) {c : PMap κ ν} {lc : List (κ × ν)}
    (hc : Rep hash c lc) (hd : ∀ kv ∈ l, ∀ kv' ∈ lc, kv'.1 ≠ kv.1)
    {fuel : Nat} (hf : ps.length ≤ fuel) :
    ∃ c', copyLoop hash h fuel (headOr ps none) c = .ok c' ∧ Rep hash c' (l.reverse ++ lc) := by
  induction ps generalizing prev l fuel c lc with
  | nil =>
    cases l with
    | nil => cases fuel <;> exact ⟨c, by simp [headOr, copyLoop], by simpa using hc⟩
    | cons _ _ => simp [Seg] at hs
  | cons p ps ih =>
    cases l with
    | nil => simp [Seg] at hs
    | cons kv l =>
      obtain ⟨k, v⟩ := kv
      cases fuel with
      | zero => simp at hf
      | succ fuel =>
        simp only [Seg] at hs
        obtain ⟨c1, e1, r1⟩ := put_rep hash hc k v
        rw [without_eq_self (hd (k, v) (by simp))] at r1
        simp only [List.map_cons, List.nodup_cons] at hn
        have hd' : ∀ kv ∈ l, ∀ kv' ∈ (k, v) :: lc, kv'.1 ≠ kv.1 := by
          intro kv hkv kv' hkv'
          rcases List.mem_cons.mp hkv' with rfl | hkv'
          · intro e
            simp only at e
            exact hn.1 (by rw [e]; exact List.mem_map_of_mem hkv)
          · exact hd kv (by simp [hkv]) kv' hkv'
        obtain ⟨c2, e2, r2⟩ := ih hs.2 hn.2 r1 hd' (fuel := fuel) (by simpa using hf)
        refine ⟨c2, ?_, by simpa using r2⟩
        simp only [headOr, copyLoop, deref, hs.1, Out.ok_bind, e1]
        exact e2

theorem copy_rep {m : PMap κ ν} {l : List (κ × ν)} (hr : Rep hash m l) :
    ∃ c, m.copy hash = .ok c ∧ Rep hash c l.reverse := by
  obtain ⟨ps, hr⟩ := hr
  obtain ⟨c, e, r⟩ := copyLoop_rep hash hr.seg hr.keys (rep_new hash) (by simp) hr.len_le
  exact ⟨c, by rw [copy, hr.head_eq]; exact e, by simpa using r⟩

end Verif.Model.PMap
