import Verif.Model.Mem
import Verif.Spec.Mem

/-! Helper lemmas about the memory manager. -/

namespace Verif.Model.Mem

@[simp] theorem upd_same [DecidableEq κ] (f : κ → β) (k : κ) (v : β) : upd f k v k = v := by simp [upd]

theorem upd_ne [DecidableEq κ] (f : κ → β) {k x : κ} (v : β) (h : x ≠ k) : upd f k v x = f x := by
  simp [upd, h]

theorem Cls.size_ge (c : Cls) : 32 ≤ c.size := by cases c <;> simp [Cls.size]
theorem Cls.size_le (c : Cls) : c.size ≤ 128 := by cases c <;> simp [Cls.size]

theorem clsOf_size (c : Cls) : clsOf c.size = some c := by cases c <;> rfl

theorem clsOf_some {n : Nat} {c : Cls} (h : clsOf n = some c) : n = c.size := by
  unfold clsOf at h
  split at h
  · cases h; assumption
  · split at h
    · cases h; assumption
    · split at h
      · cases h; assumption
      · cases h

/-- Bytes of a block of memory, header included. -/
def extent (h : Heap) (a : Addr) : Nat :=
  match h.mem a with
  | some b => b.data.length + 8
  | none => 0

/-- Bytes of all blocks. -/
def weight (h : Heap) (L : List Addr) : Nat := (L.map (extent h)).sum

/-- Shape of a block address for a block of `size` bytes. -/
def Shape (h : Heap) (a : Addr) (size : Nat) : Prop :=
  match a with
  | .pod c i => size = c.size ∧ i < h.count c
  | .os id => id < h.fresh ∧ clsOf size = none

/-- Invariant of the memory manager relative to the blocks in use. `z` says that pool memory was zero when
it was obtained. -/
structure Core (z : Bool) (h : Heap) (L : List Addr) : Prop where
  nodup : L.Nodup
  blk : ∀ a ∈ L, ∃ b, h.mem a = some b ∧ b.width = b.data.length + 8 ∧ Shape h a b.width
  freeShape : ∀ c, ∀ a ∈ h.free c, ∃ i, a = .pod c i ∧ i < h.count c
  freeMem : ∀ c, ∀ a ∈ h.free c, ∃ b, h.mem a = some b ∧ b.data = List.replicate (c.size - 8) 0
  freeOut : ∀ c, ∀ a ∈ h.free c, a ∉ L
  freeNodup : ∀ c, (h.free c).Nodup
  count : ∀ c, h.count c ≤ h.pods c
  untouched : ∀ c i, h.count c ≤ i → i < h.pods c → ∃ b, h.mem (.pod c i) = some b ∧
    b.data.length = c.size - 8 ∧ (z = true → b.data = List.replicate (c.size - 8) 0)
  off : h.usePools = false → ∀ c, h.pods c = 0
  area : ∀ c i, i < h.pods c → (i + 1) * c.size ≤ h.area

theorem weight_congr {h h' : Heap} {L : List Addr} (e : ∀ a ∈ L, h'.mem a = h.mem a) :
    weight h' L = weight h L := by
  unfold weight
  congr 1
  apply List.map_congr_left
  intro a ha
  simp only [extent, e a ha]

theorem weight_cons (h : Heap) (a : Addr) (L : List Addr) :
    weight h (a :: L) = extent h a + weight h L := by
  simp [weight]

theorem weight_perm {h : Heap} {L L' : List Addr} (p : L.Perm L') : weight h L = weight h L' := by
  unfold weight
  exact (p.map _).sum_nat

theorem Core.perm {z : Bool} {h : Heap} {L L' : List Addr} (hc : Core z h L) (p : L.Perm L') :
    Core z h L' where
  nodup := p.nodup_iff.1 hc.nodup
  blk a ha := hc.blk a (p.mem_iff.2 ha)
  freeShape := hc.freeShape
  freeMem := hc.freeMem
  freeOut c a ha hl := hc.freeOut c a ha (p.mem_iff.2 hl)
  freeNodup := hc.freeNodup
  count := hc.count
  untouched := hc.untouched
  off := hc.off
  area := hc.area

/-- The free list has room for a pod that is in use. -/
theorem Core.free_room {z : Bool} {h : Heap} {L : List Addr} (hc : Core z h L) {c : Cls} {i : Nat}
    (hm : Addr.pod c i ∉ h.free c) (hi : i < h.count c) : (h.free c).length < h.pods c := by
  have h1 : (Addr.pod c i :: h.free c).Nodup := List.nodup_cons.2 ⟨hm, hc.freeNodup c⟩
  have h2 : (Addr.pod c i :: h.free c) ⊆ (List.range (h.count c)).map (Addr.pod c) := by
    intro y hy
    rw [List.mem_map]
    rcases List.mem_cons.1 hy with rfl | hy
    · exact ⟨i, List.mem_range.2 hi, rfl⟩
    · obtain ⟨j, rfl, hj⟩ := hc.freeShape c y hy
      exact ⟨j, List.mem_range.2 hj, rfl⟩
  have h3 := h1.length_le_of_subset h2
  simp at h3
  have := hc.count c
  omega

/-! ## Sizes -/

theorem wrap_small {n : Nat} (h : n < 18446744073709551616) : wrap n = n := Nat.mod_eq_of_lt h

theorem wrap_sub {l w s : Nat} (h1 : w ≤ l) (h2 : l - w + s < 18446744073709551616)
    (h3 : w ≤ 18446744073709551616) : wrap (l + (18446744073709551616 - w) + s) = l - w + s := by
  unfold wrap
  omega

theorem throughInt_cases (n : Nat) : throughInt n < 2147483648 ∨ 9223372036854775808 ≤ throughInt n := by
  unfold throughInt
  simp only
  split <;> omega

theorem throughInt_small {n : Nat} (h : n < 4294967296) (h2 : throughInt n < 9223372036854775808) :
    throughInt n = n := by
  unfold throughInt at *
  simp only at *
  split at h2 <;> split <;> omega

/-- What the size of a new block is, provided the call does not exit. -/
structure SizeOk (h : Heap) (n size : Nat) : Prop where
  ge : n + 8 ≤ size
  kind : (∃ c : Cls, size = c.size ∧ h.count c < h.pods c) ∨ clsOf size = none

theorem bucketRaw_ok (h : Heap) {n : Nat} (hn : 0 < n) :
    n ≤ bucketRaw h n ∧ (bucketRaw h n ≤ n + 1 ∨ bucketRaw h n ≤ 128) ∧
    ((∃ c : Cls, bucketRaw h n = c.size ∧ h.count c < h.pods c) ∨ clsOf (bucketRaw h n) = none) := by
  unfold bucketRaw
  split
  · exact ⟨by omega, by omega, .inl ⟨.s, rfl, by omega⟩⟩
  split
  · exact ⟨by omega, by omega, .inl ⟨.m, rfl, by omega⟩⟩
  split
  · exact ⟨by omega, by omega, .inl ⟨.l, rfl, by omega⟩⟩
  split
  · refine ⟨by omega, by omega, .inr ?_⟩
    unfold clsOf
    rw [if_neg (by omega), if_neg (by omega), if_neg (by omega)]
  · refine ⟨by omega, by omega, .inr ?_⟩
    unfold clsOf
    rw [if_neg (by omega), if_neg (by omega), if_neg (by omega)]

theorem bucket_ok (h : Heap) {n : Nat} (hn : n + 9 < 4294967296)
    (hb : bucket h (wrap (n + 8)) < 9223372036854775808) : SizeOk h n (bucket h (wrap (n + 8))) := by
  have hw : wrap (n + 8) = n + 8 := by unfold wrap; omega
  rw [hw] at hb ⊢
  obtain ⟨h1, h2, h3⟩ := bucketRaw_ok h (n := n + 8) (by omega)
  have he : bucket h (n + 8) = bucketRaw h (n + 8) := throughInt_small (by omega) hb
  rw [he]
  exact ⟨h1, h3⟩

/-! ## Single steps -/

/-- A new block that is not yet in use. -/
structure NewBlock (z : Bool) (h : Heap) (L : List Addr) (a : Addr) (size : Nat) : Prop where
  out : a ∉ L
  notFree : ∀ c, a ∉ h.free c
  shape : Shape h a size
  mem : ∃ b, h.mem a = some b ∧ b.data.length + 8 = size ∧
    (z = true → b.data = List.replicate (size - 8) 0)

theorem Shape.mono {h h' : Heap} {a : Addr} {n : Nat} (hs : Shape h a n)
    (hc : ∀ c, h.count c ≤ h'.count c) (hf : h.fresh ≤ h'.fresh) : Shape h' a n := by
  unfold Shape at *
  cases a with
  | pod c i => exact ⟨hs.1, Nat.lt_of_lt_of_le hs.2 (hc c)⟩
  | os id => exact ⟨Nat.lt_of_lt_of_le hs.1 hf, hs.2⟩

theorem poolAlloc_spec {z : Bool} {h h' : Heap} {L : List Addr} {n size : Nat} {a : Addr}
    (hc : Core z h L) (hs : SizeOk h n size) (e : poolAlloc h size = .ok (h', a)) :
    Core z h' L ∧ NewBlock z h' L a size ∧ (∀ x ∈ L, h'.mem x = h.mem x) ∧
      h'.used = h.used + size ∧ h'.used < 9223372036854775808 ∧ h'.ledger = h.ledger ∧ h'.limit = h.limit ∧
      h'.usePools = h.usePools ∧ h'.area = h.area ∧ h'.pods = h.pods := by
  unfold poolAlloc at e
  split at e
  · cases e
  rename_i hu
  have hsys : ∀ {h1 : Heap} {a : Addr}, osAlloc h size = .ok (h1, a) → clsOf size = none →
      ({ h1 with used := h1.used + size } : Heap) = h' → 
      Core z h' L ∧ NewBlock z h' L a size ∧ (∀ x ∈ L, h'.mem x = h.mem x) ∧
      h'.used = h.used + size ∧ h'.used < 9223372036854775808 ∧ h'.ledger = h.ledger ∧ h'.limit = h.limit ∧
      h'.usePools = h.usePools ∧ h'.area = h.area ∧ h'.pods = h.pods := by
    intro h1 a e hcls eh
    unfold osAlloc at e
    split at e
    · cases e
    · simp only [Out.ok.injEq, Prod.mk.injEq] at e
      obtain ⟨rfl, rfl⟩ := e
      subst eh
      have hne : ∀ x ∈ L, x ≠ Addr.os h.fresh := by
        intro x hx hxe
        obtain ⟨b, _, _, hb⟩ := hc.blk x hx
        subst hxe
        simp [Shape] at hb
      have hnf : ∀ c, ∀ x ∈ h.free c, x ≠ Addr.os h.fresh := by
        intro c x hx hxe
        obtain ⟨i, rfl, _⟩ := hc.freeShape c x hx
        cases hxe
      refine ⟨?_, ?_, ?_, rfl, by simp only; omega, rfl, rfl, rfl, rfl, rfl⟩
      · exact {
          nodup := hc.nodup
          blk := by
            intro x hx
            obtain ⟨b, h1, h2, h3⟩ := hc.blk x hx
            refine ⟨b, ?_, h2, h3.mono (fun _ => Nat.le_refl _) (by simp)⟩
            simp only [upd_ne _ _ (hne x hx), h1]
          freeShape := hc.freeShape
          freeMem := by
            intro c x hx
            obtain ⟨b, h1, h2⟩ := hc.freeMem c x hx
            refine ⟨b, ?_, h2⟩
            simp only [upd_ne _ _ (hnf c x hx), h1]
          freeOut := hc.freeOut
          freeNodup := hc.freeNodup
          count := hc.count
          untouched := by
            intro c i h1 h2
            simp only [upd_ne h.mem (k := Addr.os h.fresh) (x := Addr.pod c i) _ (by simp)]
            exact hc.untouched c i h1 h2
          off := hc.off
          area := hc.area }
      · refine ⟨fun hx => hne _ hx rfl, fun c hx => hnf c _ hx rfl, ?_, ?_⟩
        · exact ⟨by simp, hcls⟩
        · refine ⟨⟨0, List.replicate (size - 8) 0⟩, by simp, ?_, fun _ => rfl⟩
          have := hs.ge
          simp
          omega
      · intro x hx
        simp only [upd_ne _ _ (hne x hx)]
  rcases hs.kind with ⟨c, rfl, hcount⟩ | hnone
  · have hpools : h.usePools = true := by
      cases hp : h.usePools with
      | true => rfl
      | false => have := hc.off hp c; omega
    simp only [hpools, if_true, clsOf_size, Option.bind_some] at e
    unfold takePod at e
    cases hf : h.free c with
    | cons x rest =>
      simp only [hf, Out.ok.injEq, Prod.mk.injEq] at e
      obtain ⟨rfl, rfl⟩ := e
      have hxm : x ∈ h.free c := hf ▸ List.mem_cons_self
      obtain ⟨i, hxe, hi⟩ := hc.freeShape c x hxm
      have hnd := hc.freeNodup c
      rw [hf] at hnd
      have hmem : ∀ c' y, y ∈ (upd h.free c rest) c' → y ∈ h.free c' := by
        intro c' y hy
        by_cases hcc : c' = c
        · subst hcc; rw [upd_same] at hy; rw [hf]; exact List.mem_cons_of_mem _ hy
        · rwa [upd_ne _ _ hcc] at hy
      refine ⟨?_, ?_, fun _ _ => rfl, rfl, by simp only; omega, rfl, rfl, rfl, rfl, rfl⟩
      · exact {
          nodup := hc.nodup
          blk := hc.blk
          freeShape := fun c' y hy => hc.freeShape c' y (hmem c' y hy)
          freeMem := fun c' y hy => hc.freeMem c' y (hmem c' y hy)
          freeOut := fun c' y hy => hc.freeOut c' y (hmem c' y hy)
          freeNodup := by
            intro c'
            by_cases hcc : c' = c
            · subst hcc; simp only [upd_same]; exact (List.nodup_cons.1 hnd).2
            · simp only [upd_ne _ _ hcc]; exact hc.freeNodup c'
          count := hc.count
          untouched := hc.untouched
          off := hc.off
          area := hc.area }
      · refine ⟨hc.freeOut c x hxm, ?_, ?_, ?_⟩
        · intro c' hx
          by_cases hcc : c' = c
          · subst hcc
            simp only [upd_same] at hx
            exact (List.nodup_cons.1 hnd).1 hx
          · simp only [upd_ne _ _ hcc] at hx
            obtain ⟨j, hj, _⟩ := hc.freeShape c' x hx
            rw [hxe] at hj
            cases hj
            exact hcc rfl
        · rw [hxe]; exact ⟨rfl, hi⟩
        · obtain ⟨b, h1, h2⟩ := hc.freeMem c x hxm
          refine ⟨b, h1, ?_, fun _ => h2⟩
          have := c.size_ge
          simp [h2]; omega
    | nil =>
      simp only [hf, hcount, if_true, Out.ok.injEq, Prod.mk.injEq] at e
      obtain ⟨rfl, rfl⟩ := e
      have hmono : ∀ c', h.count c' ≤ (upd h.count c (h.count c + 1)) c' := by
        intro c'
        by_cases hcc : c' = c
        · subst hcc; rw [upd_same]; omega
        · rw [upd_ne _ _ hcc]; exact Nat.le_refl _
      refine ⟨?_, ?_, fun _ _ => rfl, rfl, by simp only; omega, rfl, rfl, rfl, rfl, rfl⟩
      · exact {
          nodup := hc.nodup
          blk := by
            intro x hx
            obtain ⟨b, h1, h2, h3⟩ := hc.blk x hx
            exact ⟨b, h1, h2, h3.mono hmono (Nat.le_refl _)⟩
          freeShape := by
            intro c' y hy
            obtain ⟨i, h1, h2⟩ := hc.freeShape c' y hy
            exact ⟨i, h1, Nat.lt_of_lt_of_le h2 (hmono c')⟩
          freeMem := hc.freeMem
          freeOut := hc.freeOut
          freeNodup := hc.freeNodup
          count := by
            intro c'
            by_cases hcc : c' = c
            · subst hcc; simp only [upd_same]; omega
            · simp only [upd_ne _ _ hcc]; exact hc.count c'
          untouched := fun c' i h1 h2 => hc.untouched c' i (Nat.le_trans (hmono c') h1) h2
          off := hc.off
          area := hc.area }
      · refine ⟨?_, ?_, ⟨rfl, by simp⟩, ?_⟩
        · intro hx
          obtain ⟨b, _, _, h3⟩ := hc.blk _ hx
          have := h3.2
          omega
        · intro c' hx
          obtain ⟨j, hj, h2⟩ := hc.freeShape c' _ hx
          cases hj
          omega
        · obtain ⟨b, h1, h2, h3⟩ := hc.untouched c (h.count c) (Nat.le_refl _) hcount
          refine ⟨b, h1, ?_, h3⟩
          have := c.size_ge
          omega
  · have hr : (if h.usePools = true then (clsOf size).bind (takePod h) else none) = none := by
      rw [hnone]; simp
    rw [hr] at e
    simp only at e
    rcases hos : osAlloc h size with ⟨h1, a1⟩ | _ | _
    · rw [hos] at e
      simp only [Out.ok_bind, Out.ok.injEq, Prod.mk.injEq] at e
      obtain ⟨e1, rfl⟩ := e
      exact hsys hos hnone e1
    · rw [hos] at e; cases e
    · rw [hos] at e; cases e

/-- A new block joins the blocks in use once its header is written. -/
theorem Core.add {z : Bool} {h : Heap} {L : List Addr} {a : Addr} {b : Block} (hc : Core z h L)
    (ho : a ∉ L) (hf : ∀ c, a ∉ h.free c) (hs : Shape h a b.width) (hw : b.width = b.data.length + 8) :
    Core z { h with mem := upd h.mem a (some b) } (a :: L) where
  nodup := List.nodup_cons.2 ⟨ho, hc.nodup⟩
  blk := by
    intro x hx
    by_cases hxa : x = a
    · subst hxa; exact ⟨b, by simp, hw, hs⟩
    · rcases List.mem_cons.1 hx with rfl | hx
      · exact absurd rfl hxa
      · obtain ⟨b', h1, h2, h3⟩ := hc.blk x hx
        exact ⟨b', by simp only [upd_ne _ _ hxa, h1], h2, h3⟩
  freeShape := hc.freeShape
  freeMem := by
    intro c x hx
    have hxa : x ≠ a := fun e => hf c (e ▸ hx)
    simp only [upd_ne _ _ hxa]
    exact hc.freeMem c x hx
  freeOut := by
    intro c x hx hl
    rcases List.mem_cons.1 hl with rfl | hl
    · exact hf c hx
    · exact hc.freeOut c x hx hl
  freeNodup := hc.freeNodup
  count := hc.count
  untouched := by
    intro c i h1 h2
    have hxa : Addr.pod c i ≠ a := by
      intro e
      subst e
      have := hs.2
      simp only at h1
      omega
    simp only [upd_ne _ _ hxa]
    exact hc.untouched c i h1 h2
  off := hc.off
  area := hc.area

/-- Releasing a block that is in use. -/
theorem poolDealloc_spec {z : Bool} {h : Heap} {L : List Addr} {a : Addr} (hc : Core z h (a :: L)) :
    ∃ h', poolDealloc h a = .ok h' ∧ Core z h' L ∧ (∀ x, x ≠ a → h'.mem x = h.mem x) ∧
      h'.used = h.used - extent h a ∧ h'.ledger = h.ledger ∧ h'.limit = h.limit ∧
      h'.usePools = h.usePools ∧ h'.area = h.area ∧ h'.pods = h.pods ∧ h'.count = h.count ∧
      h'.fresh = h.fresh ∧
      (∀ x c, x ∈ h'.free c → x = a ∨ x ∈ h.free c) ∧
      (∀ c i, a = .pod c i → a ∈ h'.free c) := by
  obtain ⟨b, hb, hw, hs⟩ := hc.blk a List.mem_cons_self
  obtain ⟨haL, hnL⟩ := List.nodup_cons.1 hc.nodup
  have hnf : ∀ c, a ∉ h.free c := fun c hx => hc.freeOut c a hx List.mem_cons_self
  have hext : extent h a = b.data.length + 8 := by simp [extent, hb]
  cases a with
  | os id =>
    have hsys : poolDealloc h (.os id) = .ok { h with
        used := h.used - (b.data.length + 8)
        mem := upd h.mem (.os id) none } := by
      unfold poolDealloc
      simp only [hb, hs.2, osFree]
      split <;> rfl
    refine ⟨_, hsys, ?_, ?_, by rw [hext], rfl, rfl, rfl, rfl, rfl, rfl, rfl, fun x c hx => .inr hx,
      fun c i hx => by cases hx⟩
    · exact {
        nodup := hnL
        blk := by
          intro x hx
          have hxa : x ≠ Addr.os id := fun e => haL (e ▸ hx)
          simp only [upd_ne _ _ hxa]
          exact hc.blk x (List.mem_cons_of_mem _ hx)
        freeShape := hc.freeShape
        freeMem := by
          intro c x hx
          have hxa : x ≠ Addr.os id := fun e => hnf c (e ▸ hx)
          simp only [upd_ne _ _ hxa]
          exact hc.freeMem c x hx
        freeOut := fun c x hx hl => hc.freeOut c x hx (List.mem_cons_of_mem _ hl)
        freeNodup := hc.freeNodup
        count := hc.count
        untouched := by
          intro c i h1 h2
          simp only [upd_ne h.mem (k := Addr.os id) (x := Addr.pod c i) _ (by simp)]
          exact hc.untouched c i h1 h2
        off := hc.off
        area := hc.area }
    · intro x hxa
      simp only [upd_ne _ _ hxa]
  | pod c i =>
    obtain ⟨hsz, hi⟩ := hs
    have hroom : (h.free c).length < h.pods c := hc.free_room (hnf c) hi
    have hpools : h.usePools = true := by
      cases hp : h.usePools with
      | true => rfl
      | false => have := hc.off hp c; omega
    have hge := c.size_ge
    have hlen : b.data.length = c.size - 8 := by omega
    have hpd : poolDealloc h (.pod c i) = .ok { h with
        used := h.used - (b.data.length + 8)
        free := upd h.free c (.pod c i :: h.free c)
        mem := upd h.mem (.pod c i) (some ⟨0, List.replicate (c.size - 8) 0⟩) } := by
      unfold poolDealloc
      simp only [hb, hsz, clsOf_size, hroom, if_true, hpools, Bool.not_true, Bool.false_eq_true, if_false]
      rw [if_neg (by omega), List.drop_eq_nil_of_le (by omega), List.append_nil]
    have hfree : ∀ x c', x ∈ (upd h.free c (.pod c i :: h.free c)) c' →
        (x = .pod c i ∧ c' = c) ∨ (x ∈ h.free c' ∧ x ≠ .pod c i) := by
      intro x c' hx
      by_cases hcc : c' = c
      · subst hcc
        rw [upd_same] at hx
        rcases List.mem_cons.1 hx with rfl | hx
        · exact .inl ⟨rfl, rfl⟩
        · exact .inr ⟨hx, fun e => hnf _ (e ▸ hx)⟩
      · rw [upd_ne _ _ hcc] at hx
        exact .inr ⟨hx, fun e => hnf _ (e ▸ hx)⟩
    refine ⟨_, hpd, ?_, ?_, by rw [hext], rfl, rfl, rfl, rfl, rfl, rfl, rfl, ?_, ?_⟩
    · exact {
        nodup := hnL
        blk := by
          intro x hx
          have hxa : x ≠ Addr.pod c i := fun e => haL (e ▸ hx)
          simp only [upd_ne _ _ hxa]
          exact hc.blk x (List.mem_cons_of_mem _ hx)
        freeShape := by
          intro c' x hx
          rcases hfree x c' hx with ⟨rfl, rfl⟩ | ⟨hx, _⟩
          · exact ⟨i, rfl, hi⟩
          · exact hc.freeShape c' x hx
        freeMem := by
          intro c' x hx
          rcases hfree x c' hx with ⟨rfl, rfl⟩ | ⟨hx, hne⟩
          · exact ⟨⟨0, List.replicate (c'.size - 8) 0⟩, by simp, rfl⟩
          · simp only [upd_ne _ _ hne]
            exact hc.freeMem c' x hx
        freeOut := by
          intro c' x hx hl
          rcases hfree x c' hx with ⟨rfl, rfl⟩ | ⟨hx, hne⟩
          · exact haL hl
          · exact hc.freeOut c' x hx (List.mem_cons_of_mem _ hl)
        freeNodup := by
          intro c'
          by_cases hcc : c' = c
          · subst hcc
            simp only [upd_same]
            exact List.nodup_cons.2 ⟨hnf _, hc.freeNodup _⟩
          · simp only [upd_ne _ _ hcc]
            exact hc.freeNodup c'
        count := hc.count
        untouched := by
          intro c' j h1 h2
          have hne : Addr.pod c' j ≠ Addr.pod c i := by
            intro e
            cases e
            simp only at h1
            omega
          simp only [upd_ne _ _ hne]
          exact hc.untouched c' j h1 h2
        off := hc.off
        area := hc.area }
    · intro x hxa
      simp only [upd_ne _ _ hxa]
    · intro x c' hx
      rcases hfree x c' hx with ⟨rfl, rfl⟩ | ⟨hx, _⟩
      · exact .inl rfl
      · exact .inr hx
    · intro c' j e
      cases e
      simp

/-- Core plus bookkeeping. -/
structure HInv (z : Bool) (h : Heap) (L : List Addr) : Prop extends Core z h L where
  used : h.used = weight h L
  ledger : h.ledger = h.used
  fits : h.used < 9223372036854775808

theorem Core.setLedger {z : Bool} {h : Heap} {L : List Addr} (hc : Core z h L) (n : Nat) :
    Core z { h with ledger := n } L := ⟨hc.nodup, hc.blk, hc.freeShape, hc.freeMem, hc.freeOut, hc.freeNodup,
      hc.count, hc.untouched, hc.off, hc.area⟩

/-- `allocate` does not go wrong, and what it returns is a new block. -/
theorem allocate_spec {z : Bool} {h : Heap} {L : List Addr} {n : Nat} (hi : HInv z h L)
    (hn : n + 9 < 4294967296) :
    allocate h n = .exit ∨ ∃ h' a b, allocate h n = .ok (h', a) ∧ HInv z h' (a :: L) ∧ a ∉ L ∧
      (∀ x ∈ L, h'.mem x = h.mem x) ∧ h'.mem a = some b ∧ n ≤ b.data.length ∧
      (z = true → b.data = List.replicate b.data.length 0) ∧ h'.ledger ≤ h'.limit ∧ h'.limit = h.limit ∧
      h'.usePools = h.usePools ∧ h'.area = h.area := by
  unfold allocate
  simp only
  split
  · exact .inl rfl
  rename_i hlim
  rcases hp : poolAlloc { h with ledger := wrap (h.ledger + bucket h (wrap (n + 8))) }
    (bucket h (wrap (n + 8))) with ⟨h1, a⟩ | _ | _
  · right
    have hsz : bucket h (wrap (n + 8)) < 9223372036854775808 := by
      have := hp
      unfold poolAlloc at this
      split at this
      · cases this
      · omega
    have hok := bucket_ok h hn hsz
    obtain ⟨c1, nb, fr, u1, u2, l1, l2, l3, l4, l5⟩ := poolAlloc_spec
      (hi.toCore.setLedger (wrap (h.ledger + bucket h (wrap (n + 8))))) ⟨hok.ge, hok.kind⟩ hp
    obtain ⟨b, hb, hl, hz⟩ := nb.mem
    have hge := hok.ge
    simp only [Out.ok_bind, setWidth, hb]
    rw [if_neg (by omega)]
    refine ⟨_, a, ⟨bucket h (wrap (n + 8)), b.data⟩, rfl, ?_, nb.out, ?_, by simp, by simp only; omega, ?_,
      ?_, by simp only [l2], by simp only [l3], by simp only [l4]⟩
    · have hcore := c1.add (b := ⟨bucket h (wrap (n + 8)), b.data⟩) nb.out nb.notFree nb.shape (by simp only; omega)
      have hfr : ∀ x ∈ L, (upd h1.mem a (some ⟨bucket h (wrap (n + 8)), b.data⟩)) x = h.mem x := by
        intro x hx
        have : x ≠ a := fun e => nb.out (e ▸ hx)
        rw [upd_ne _ _ this, fr x hx]
      have hwt : weight { h1 with mem := upd h1.mem a (some ⟨bucket h (wrap (n + 8)), b.data⟩) } (a :: L) =
          bucket h (wrap (n + 8)) + weight h L := by
        rw [weight_cons, weight_congr (h := h) hfr]
        simp only [extent, upd_same]
        omega
      have hu := hi.used
      have hled := hi.ledger
      refine { toCore := hcore, used := ?_, ledger := ?_, fits := u2 }
      · rw [hwt]; simp only [u1]; omega
      · simp only [u1] at u2
        simp only [u1, l1]
        rw [wrap_small (by omega), hled]
    · intro x hx
      have : x ≠ a := fun e => nb.out (e ▸ hx)
      simp only [upd_ne _ _ this, fr x hx]
    · intro h
      rw [hz h]
      simp
    · simp only [l1, l2]
      omega
  · exfalso
    unfold poolAlloc at hp
    split at hp
    · cases hp
    · simp only at hp
      split at hp
      · cases hp
      · unfold osAlloc at hp
        split at hp <;> cases hp
  · left; rfl

theorem free_spec {z : Bool} {h : Heap} {L : List Addr} {a : Addr} (hi : HInv z h (a :: L)) :
    ∃ h', free h a = .ok h' ∧ HInv z h' L ∧ (∀ x ∈ L, h'.mem x = h.mem x) ∧ h'.limit = h.limit ∧
      h'.area = h.area ∧ h'.usePools = h.usePools := by
  obtain ⟨b, hb, hw, _⟩ := hi.blk a List.mem_cons_self
  obtain ⟨h', e, c, fr, u, l, l2, l3, l4, _⟩ := poolDealloc_spec hi.toCore
  obtain ⟨haL, _⟩ := List.nodup_cons.1 hi.nodup
  have hfr : ∀ x ∈ L, h'.mem x = h.mem x := fun x hx => fr x (fun e => haL (e ▸ hx))
  have hext : extent h a = b.width := by simp [extent, hb, hw]
  have hwt := weight_congr hfr
  have h1 := hi.used
  have h2 := hi.ledger
  have h3 := hi.fits
  rw [weight_cons, hext] at h1
  refine ⟨{ h' with ledger := h'.ledger - b.width }, ?_, ?_, hfr, l2, l4, l3⟩
  · simp only [free, hb, e, Out.ok_bind]
    rw [if_neg (by omega)]
  · refine { toCore := c.setLedger _, used := ?_, ledger := ?_, fits := ?_ }
    · have : weight { h' with ledger := h'.ledger - b.width } L = weight h' L := rfl
      rw [this, hwt]
      simp only [u, hext]
      omega
    · simp only [u, hext]
      omega
    · simp only [u]
      omega

theorem Core.remove {z : Bool} {h : Heap} {L : List Addr} {a : Addr} (hc : Core z h (a :: L)) : Core z h L where
  nodup := (List.nodup_cons.1 hc.nodup).2
  blk := fun x hx => hc.blk x (List.mem_cons_of_mem _ hx)
  freeShape := hc.freeShape
  freeMem := hc.freeMem
  freeOut := fun c x hx hl => hc.freeOut c x hx (List.mem_cons_of_mem _ hl)
  freeNodup := hc.freeNodup
  count := hc.count
  untouched := hc.untouched
  off := hc.off
  area := hc.area

/-- `reallocate` of a block in use does not go wrong; the bytes of the old block are the first bytes of the
new one. -/
theorem reallocate_spec {z : Bool} {h : Heap} {L : List Addr} {a : Addr} {n : Nat} (hi : HInv z h (a :: L))
    (hn : n + 9 < 4294967296) :
    reallocate h a n = .exit ∨ ∃ h' a' b b', reallocate h a n = .ok (h', a') ∧ HInv z h' (a' :: L) ∧
      h.mem a = some b ∧ h'.mem a' = some b' ∧ b'.data.take b.data.length = b.data ∧ n ≤ b'.data.length ∧
      (∀ x ∈ L, h'.mem x = h.mem x) ∧ h'.limit = h.limit ∧ h'.area = h.area ∧ h'.usePools = h.usePools := by
  obtain ⟨b, hb, hw, hsh⟩ := hi.blk a List.mem_cons_self
  obtain ⟨haL, _⟩ := List.nodup_cons.1 hi.nodup
  have hext : extent h a = b.width := by simp [extent, hb, hw]
  have h1 := hi.used
  have h2 := hi.ledger
  have h3 := hi.fits
  rw [weight_cons, hext] at h1
  unfold reallocate
  simp only [hb]
  split
  · rename_i hle
    right
    have hok := bucket_ok h hn (by omega)
    have := hok.ge
    refine ⟨h, a, b, b, rfl, hi, hb.symm ▸ rfl, hb, by simp, by omega, fun _ _ => rfl, rfl, rfl, rfl⟩
  rename_i hgt
  rcases hp : poolAlloc { h with
    ledger := wrap (h.ledger + (18446744073709551616 - b.width) + bucket h (wrap (n + 8))) }
    (bucket h (wrap (n + 8))) with ⟨h', a'⟩ | _ | _
  · right
    have hsz : bucket h (wrap (n + 8)) < 9223372036854775808 := by
      have := hp
      unfold poolAlloc at this
      split at this
      · cases this
      · omega
    have hok := bucket_ok h hn hsz
    obtain ⟨c1, nb, fr, u1, u2, l1, l2, l3, l4, l5⟩ :=
      poolAlloc_spec (hi.toCore.setLedger (wrap (h.ledger + (18446744073709551616 - b.width) +
        bucket h (wrap (n + 8))))) ⟨hok.ge, hok.kind⟩ hp
    obtain ⟨d, hd, hl, hz⟩ := nb.mem
    have hge := hok.ge
    have hma : h'.mem a = some b := by rw [fr a List.mem_cons_self]; exact hb
    have haa : a ≠ a' := fun e => nb.out (by rw [← e]; exact List.mem_cons_self)
    -- the copy
    have hcp : copyBlock h' a' a b.width = .ok { h' with
        mem := upd h'.mem a' (some ⟨b.width, b.data ++ d.data.drop b.data.length⟩) } := by
      unfold copyBlock
      simp only [hd, hma]
      rw [if_pos (by omega), hw, Nat.add_sub_cancel, List.take_length]
    simp only [Out.ok_bind, hcp]
    -- release of the old block: look at the state in which the new block is already in use
    have hcore2 : Core z { h' with
        mem := upd h'.mem a' (some ⟨bucket h (wrap (n + 8)), b.data ++ d.data.drop b.data.length⟩) }
        (a' :: a :: L) := by
      refine c1.add (b := ⟨bucket h (wrap (n + 8)), b.data ++ d.data.drop b.data.length⟩) nb.out nb.notFree
        nb.shape ?_
      simp only [List.length_append, List.length_drop]
      omega
    generalize hh2 : ({ h' with
        mem := upd h'.mem a' (some ⟨bucket h (wrap (n + 8)), b.data ++ d.data.drop b.data.length⟩) } : Heap) = h2'
      at hcore2
    have hcore3 : Core z h2' (a :: a' :: L) := hcore2.perm (List.Perm.swap _ _ _)
    obtain ⟨h4, e4, c4, fr4, u4, q1, q2, q3, q4, q5, q6, q7, q8, q9⟩ := poolDealloc_spec hcore3
    -- releasing does not look at the header of the new block
    have hcomm : ∀ (g : Heap) (w : Nat) (dt : List UInt8) (g4 : Heap),
        poolDealloc { g with mem := upd g.mem a' (some ⟨w, dt⟩) } a = .ok g4 →
        ∀ w', ∃ g5, poolDealloc { g with mem := upd g.mem a' (some ⟨w', dt⟩) } a = .ok g5 ∧
          g5 = { g4 with mem := upd g4.mem a' (some ⟨w', dt⟩) } ∧ g4.mem a' = some ⟨w, dt⟩ := by
      intro g w dt g4 hg w'
      have swap : ∀ (v v' : Option Block), upd (upd g.mem a' v) a v' = upd (upd g.mem a v') a' v := by
        intro v v'
        funext x
        simp only [upd]
        split <;> split <;> simp_all
      have over : ∀ (f : Addr → Option Block) (v v' : Option Block), upd (upd f a' v) a' v' = upd f a' v' := by
        intro f v v'
        funext x
        simp only [upd]
        split <;> rfl
      have hgm : ∀ v, (upd g.mem a' v) a = g.mem a := fun v => upd_ne _ _ haa
      unfold poolDealloc at hg ⊢
      simp only [hgm] at hg ⊢
      cases hga : g.mem a with
      | none => rw [hga] at hg; cases hg
      | some bb =>
        rw [hga] at hg
        simp only at hg ⊢
        have hos : ∀ (g' : Heap) (w : Nat), g'.mem = upd g.mem a' (some ⟨w, dt⟩) →
            ∀ g4, osFree g' a = .ok g4 →
            (∃ id, a = .os id) ∧ g4 = { g' with mem := upd g'.mem a none } := by
          intro g' w hg' g4 hg4
          unfold osFree at hg4
          split at hg4
          · cases hg4
            exact ⟨⟨_, rfl⟩, rfl⟩
          · cases hg4
        have hos2 : (∃ id, a = .os id) → ∀ (g' : Heap) , g'.mem a = some bb →
            osFree g' a = .ok { g' with mem := upd g'.mem a none } := by
          rintro ⟨id, hid⟩ g' hg'
          unfold osFree
          rw [hid] at hg' ⊢
          simp only [hg']
        have fin : ∀ g4 : Heap, osFree { g with
              used := g.used - (bb.data.length + 8), mem := upd g.mem a' (some ⟨w, dt⟩) } a = .ok g4 →
            ∃ g5, osFree { g with
              used := g.used - (bb.data.length + 8), mem := upd g.mem a' (some ⟨w', dt⟩) } a = .ok g5 ∧
              g5 = { g4 with mem := upd g4.mem a' (some ⟨w', dt⟩) } ∧ g4.mem a' = some ⟨w, dt⟩ := by
          intro g4 h4
          obtain ⟨hid, rfl⟩ := hos _ w rfl _ h4
          refine ⟨_, hos2 hid _ (by simp only [hgm, hga]), ?_, ?_⟩
          · simp only [swap, over]
          · simp only [swap, upd_same]
        split at hg
        · rename_i hnp
          rw [if_pos hnp]
          exact fin g4 hg
        · rename_i hnp
          rw [if_neg hnp]
          cases hcl : clsOf bb.width with
          | none =>
            rw [hcl] at hg
            exact fin g4 hg
          | some c =>
            rw [hcl] at hg
            simp only at hg ⊢
            split at hg
            · rename_i hroom
              rw [if_pos hroom]
              split at hg
              · cases hg
              · rename_i hlen
                rw [if_neg hlen]
                cases hg
                refine ⟨_, rfl, ?_, ?_⟩
                · simp only [swap, over]
                · simp only [swap, upd_same]
            · rename_i hroom
              rw [if_neg hroom]
              exact fin g4 hg
    subst hh2
    obtain ⟨g5, e5, rfl, hm4⟩ := hcomm h' _ _ h4 e4 b.width
    simp only [e5, Out.ok_bind, setWidth, upd_same]
    rw [if_neg (by omega)]
    have hsame : ∀ (f : Addr → Option Block) (v v' : Option Block), upd (upd f a' v) a' v' = upd f a' v' := by
      intro f v v'
      funext x
      simp only [upd]
      split <;> rfl
    have hid : upd h4.mem a' (some ⟨bucket h (wrap (n + 8)), b.data ++ d.data.drop b.data.length⟩) = h4.mem := by
      funext x
      simp only [upd]
      split
      · rename_i e; rw [e, hm4]
      · rfl
    simp only [hsame, hid]
    have haL' : a' ∉ L := fun hx => nb.out (List.mem_cons_of_mem _ hx)
    have hfr : ∀ x ∈ L, h4.mem x = h.mem x := by
      intro x hx
      have hxa : x ≠ a := fun e => haL (e ▸ hx)
      have hxa' : x ≠ a' := fun e => haL' (e ▸ hx)
      rw [fr4 x hxa]
      simp only [upd_ne _ _ hxa']
      exact fr x (List.mem_cons_of_mem _ hx)
    have hlen' : (b.data ++ d.data.drop b.data.length).length + 8 = bucket h (wrap (n + 8)) := by
      simp only [List.length_append, List.length_drop]
      omega
    have hext4 : extent { h' with
        mem := upd h'.mem a' (some ⟨bucket h (wrap (n + 8)), b.data ++ d.data.drop b.data.length⟩) } a = b.width := by
      simp only [extent, upd_ne _ _ haa, hma, hw]
    have hused : h4.used = h.used + bucket h (wrap (n + 8)) - b.width := by
      rw [u4, hext4]
      simp only [u1]
    have hwt : weight h4 (a' :: L) = bucket h (wrap (n + 8)) + weight h L := by
      rw [weight_cons, weight_congr hfr]
      simp only [extent, hm4]
      omega
    refine ⟨h4, a', b, ⟨bucket h (wrap (n + 8)), b.data ++ d.data.drop b.data.length⟩, rfl, ?_, rfl, hm4,
      by simp, ?_, hfr, by rw [q2, l2], by rw [q4, l4], by rw [q3, l3]⟩
    · simp only [u1] at u2
      refine { toCore := c4, used := ?_, ledger := ?_, fits := ?_ }
      · rw [hwt, hused]; omega
      · rw [hused, q1, l1]
        simp only
        rw [wrap_sub (by omega) (by omega) (by omega)]
        omega
      · omega
    · simp only
      omega
  · exfalso
    unfold poolAlloc at hp
    split at hp
    · cases hp
    · simp only at hp
      split at hp
      · cases hp
      · unfold osAlloc at hp
        split at hp <;> cases hp
  · left; rfl

theorem poolInit_spec {z : Bool} {h : Heap} {L : List Addr} {n : Nat} {junk : Cls → Nat → Block}
    (hi : HInv z h L) (hn : n < 300 ∨ 384 ≤ n)
    (hj : z = true → ∀ c i, ∀ x ∈ (junk c i).data, x = 0) :
    poolInit h n junk = .exit ∨ ∃ h', poolInit h n junk = .ok h' ∧ HInv z h' L ∧
      (∀ x ∈ L, h'.mem x = h.mem x) := by
  unfold poolInit
  split
  · exact .inr ⟨h, rfl, hi, fun _ _ => rfl⟩
  rename_i hp
  split
  · exact .inl rfl
  rename_i hsmall
  right
  have hp' : h.usePools = false := by simpa using hp
  have hpods : ∀ c, h.pods c = 0 := hi.off hp'
  have hcount : ∀ c, h.count c = 0 := fun c => by have := hi.count c; have := hpods c; omega
  have hfree : ∀ c, h.free c = [] := by
    intro c
    cases hf : h.free c with
    | nil => rfl
    | cons x xs =>
      obtain ⟨i, _, hlt⟩ := hi.freeShape c x (by rw [hf]; exact List.mem_cons_self)
      have := hcount c
      omega
  have hos : ∀ x ∈ L, ∃ id, x = Addr.os id := by
    intro x hx
    obtain ⟨b, _, _, hs⟩ := hi.blk x hx
    cases x with
    | os id => exact ⟨id, rfl⟩
    | pod c i => have := hs.2; have := hcount c; omega
  have hnew : ∀ c : Cls, wrap (n / 3 / c.size + (18446744073709551616 - 1)) + 1 ≤ n / 3 / c.size := by
    intro c
    have h1 : 1 ≤ n / 3 / c.size := by
      have := c.size_le
      have := c.size_ge
      rw [Nat.le_div_iff_mul_le (by omega)]
      omega
    unfold wrap
    have := Nat.mod_le (n / 3 / c.size - 1) 18446744073709551616
    omega
  have harea : ∀ (c : Cls) i, i < wrap (n / 3 / c.size + (18446744073709551616 - 1)) →
      (i + 1) * c.size ≤ n / 3 := by
    intro c i hlt
    have h1 := hnew c
    have h2 : i + 1 ≤ n / 3 / c.size := by omega
    have := c.size_ge
    exact (Nat.le_div_iff_mul_le (by omega)).1 h2
  refine ⟨_, rfl, ?_, ?_⟩
  · have hfr : ∀ x ∈ L, (match x with
        | .pod c i => if (i + 1) * c.size ≤ n / 3 then
            some ⟨(junk c i).width, ((junk c i).data ++ List.replicate c.size 0).take (c.size - 8)⟩ else none
        | .os id => h.mem (.os id) : Option Block) = h.mem x := by
      intro x hx
      obtain ⟨id, rfl⟩ := hos x hx
      rfl
    refine { nodup := hi.nodup, blk := ?_, freeShape := ?_, freeMem := ?_, freeOut := hi.freeOut,
             freeNodup := hi.freeNodup, count := ?_, untouched := ?_, off := ?_, area := harea, used := ?_,
             ledger := hi.ledger, fits := hi.fits }
    · intro x hx
      obtain ⟨b, h1, h2, h3⟩ := hi.blk x hx
      refine ⟨b, ?_, h2, h3⟩
      have := hfr x hx
      rw [← h1]
      exact this
    · intro c x hx
      simp only [hfree] at hx
      cases hx
    · intro c x hx
      simp only [hfree] at hx
      cases hx
    · intro c
      simp only [hcount]
      omega
    · intro c i _ hlt
      simp only [if_pos (harea c i hlt)]
      refine ⟨_, rfl, ?_, ?_⟩
      · simp only [List.length_take, List.length_append, List.length_replicate]
        omega
      · intro hz
        refine List.eq_replicate_iff.2 ⟨?_, ?_⟩
        · simp only [List.length_take, List.length_append, List.length_replicate]
          omega
        · intro x hx
          rcases List.mem_append.1 (List.mem_of_mem_take hx) with hx | hx
          · exact hj hz c i x hx
          · exact (List.mem_replicate.1 hx).2
    · intro h; cases h
    · rw [hi.used]
      exact (weight_congr hfr).symm
  · intro x hx
    obtain ⟨id, rfl⟩ := hos x hx
    rfl

theorem store_spec {z : Bool} {h : Heap} {L : List Addr} {a : Addr} {b : Block} {off : Nat}
    {bytes : List UInt8} (hi : HInv z h L) (ha : a ∈ L) (hb : h.mem a = some b)
    (hoff : off + bytes.length ≤ b.data.length) :
    ∃ h', store h a off bytes = .ok h' ∧ HInv z h' L ∧ (∀ x, x ≠ a → h'.mem x = h.mem x) ∧
      h'.mem a = some { b with data := b.data.take off ++ bytes ++ b.data.drop (off + bytes.length) } := by
  unfold store
  simp only [hb]
  rw [if_pos hoff]
  have hlen : (b.data.take off ++ bytes ++ b.data.drop (off + bytes.length)).length = b.data.length := by
    simp only [List.length_append, List.length_take, List.length_drop]
    omega
  obtain ⟨b', hb', hw, hs⟩ := hi.blk a ha
  rw [hb] at hb'
  cases hb'
  refine ⟨_, rfl, ?_, fun x hx => upd_ne _ _ hx, by simp⟩
  refine { nodup := hi.nodup, blk := ?_, freeShape := hi.freeShape, freeMem := ?_, freeOut := hi.freeOut,
           freeNodup := hi.freeNodup, count := hi.count, untouched := ?_, off := hi.off, area := hi.area,
           used := ?_, ledger := hi.ledger, fits := hi.fits }
  · intro x hx
    by_cases hxa : x = a
    · subst hxa
      exact ⟨_, upd_same _ _ _, by simp only [hlen, hw], hs⟩
    · simp only [upd_ne _ _ hxa]
      exact hi.blk x hx
  · intro c x hx
    have hxa : x ≠ a := fun e => hi.freeOut c x hx (e ▸ ha)
    simp only [upd_ne _ _ hxa]
    exact hi.freeMem c x hx
  · intro c i h1 h2
    have hxa : Addr.pod c i ≠ a := by
      intro e
      subst e
      have := hs.2
      simp only at h1
      omega
    simp only [upd_ne _ _ hxa]
    exact hi.untouched c i h1 h2
  · rw [hi.used]
    unfold weight
    congr 1
    apply List.map_congr_left
    intro x _
    by_cases hxa : x = a
    · subst hxa
      simp only [extent, hb, upd_same, hlen]
    · simp only [extent, upd_ne _ _ hxa]

/-! ## Histories -/

open Verif.Spec.Mem (Known Holds)

/-- The model state agrees with the blocks and contents of the specification. -/
structure Inv (z : Bool) (st : St) (cs : List Known) : Prop where
  heap : HInv z st.heap (st.live.map (·.1))
  len : cs.length = st.live.length
  holds : ∀ (k : Nat) a n, st.live[k]? = some (a, n) → ∃ (b : Block) (c : Known),
    st.heap.mem a = some b ∧ cs[k]? = some c ∧ c.length = n ∧ Holds c b.data

/-- What the specification does for an operation; `fill` is the contents of new blocks. -/
def specStep (fill : Option UInt8) (cs : List Known) : Op → List Known
  | .alloc n => Spec.Mem.alloc fill cs n
  | .free k => Spec.Mem.release cs k
  | .realloc k n => Spec.Mem.resize cs k n
  | .write k off bytes => Spec.Mem.store cs k off bytes
  | .pool _ _ => cs
  | .limit _ => cs

/-- Requests below 2^32 - 9 bytes and pools of at least 384 bytes (a request for a smaller pool than 300
bytes ends the program); with `z` the system hands out zeroed memory for the pool. -/
def OpOk (z : Bool) : Op → Prop
  | .alloc n => n + 9 < 4294967296
  | .realloc _ n => n + 9 < 4294967296
  | .pool n junk => (n < 300 ∨ 384 ≤ n) ∧ (z = true → ∀ c i, ∀ x ∈ (junk c i).data, x = 0)
  | _ => True

theorem Holds.of_take {c : Known} {d d' : List UInt8} (h : Holds c d) (e : d'.take d.length = d) (n : Nat)
    (hn : n ≤ d'.length) : Holds (Spec.Mem.resized c n) d' := by
  obtain ⟨h1, h2⟩ := h
  refine ⟨?_, ?_⟩
  · simp only [Spec.Mem.resized, List.length_append, List.length_take, List.length_replicate]
    have : d.length ≤ d'.length := by
      have := congrArg List.length e
      simp only [List.length_take] at this
      omega
    omega
  · intro i x hx
    unfold Spec.Mem.resized at hx
    rw [List.getElem?_append] at hx
    split at hx
    · rename_i hlt
      rw [List.getElem?_take] at hx
      split at hx
      · have hd := h2 i x hx
        have hil : i < d.length := (List.getElem?_eq_some_iff.1 hd).1
        have : (d'.take d.length)[i]? = some x := by rw [e]; exact hd
        rwa [List.getElem?_take, if_pos hil] at this
      · cases hx
    · rw [List.getElem?_replicate] at hx
      split at hx <;> cases hx

theorem Holds.stored {c : Known} {d : List UInt8} (h : Holds c d) {off : Nat} {bytes : List UInt8}
    (hb : off + bytes.length ≤ c.length) :
    Holds (Spec.Mem.stored c off bytes) (d.take off ++ bytes ++ d.drop (off + bytes.length)) := by
  obtain ⟨h1, h2⟩ := h
  unfold Spec.Mem.stored
  rw [if_pos hb]
  refine ⟨by simp; omega, ?_⟩
  intro i x hx
  rw [List.getElem?_map] at hx
  have hi : i < c.length := by
    have := (List.getElem?_eq_some_iff.1 ((Option.map_eq_some_iff.1 hx).choose_spec.1)).1
    simpa using this
  rw [List.getElem?_range hi, Option.map_some, Option.some.injEq] at hx
  unfold Spec.Mem.storedByte at hx
  rw [List.append_assoc, List.getElem?_append, List.length_take]
  by_cases hlt : i < off
  · rw [if_neg (by omega)] at hx
    rw [if_pos (by omega), List.getElem?_take, if_pos hlt]
    apply h2
    rwa [Option.join_eq_some_iff] at hx
  · rw [if_neg (by omega), List.getElem?_append]
    have ho : min off d.length = off := by omega
    rw [ho]
    by_cases hin : i < off + bytes.length
    · rw [if_pos (by omega)] at hx
      rw [if_pos (by omega)]
      exact hx
    · rw [if_neg (by omega)] at hx
      rw [if_neg (by omega), List.getElem?_drop]
      have : off + bytes.length + (i - off - bytes.length) = i := by omega
      rw [this]
      apply h2
      rwa [Option.join_eq_some_iff] at hx

theorem perm_eraseIdx : ∀ {l : List α} {k : Nat} {x : α}, l[k]? = some x → l.Perm (x :: l.eraseIdx k)
  | [], _, _, h => by simp at h
  | y :: l, 0, x, h => by simp at h; subst h; exact List.Perm.refl _
  | y :: l, k + 1, x, h => by
    simp only [List.getElem?_cons_succ] at h
    simp only [List.eraseIdx_cons_succ]
    exact ((perm_eraseIdx h).cons y).trans (List.Perm.swap _ _ _)

theorem HInv.perm {z : Bool} {h : Heap} {L L' : List Addr} (hi : HInv z h L) (p : L.Perm L') : HInv z h L' :=
  { toCore := hi.toCore.perm p, used := by rw [hi.used]; exact weight_perm p, ledger := hi.ledger,
    fits := hi.fits }

theorem step_inv {z : Bool} {st : St} {cs : List Known} {op : Op} (hi : Inv z st cs) (ho : OpOk z op) :
    step st op = .exit ∨ ∃ st', step st op = .ok st' ∧
      Inv z st' (specStep (if z then some 0 else none) cs op) := by
  have hmem : ∀ {k : Nat} {a n}, st.live[k]? = some (a, n) → a ∈ st.live.map (·.1) := by
    intro k a n e
    exact List.mem_map.2 ⟨(a, n), List.mem_of_getElem? e, rfl⟩
  -- blocks at different positions have different addresses
  have hdist : ∀ {k j : Nat} {a b n m}, st.live[k]? = some (a, n) → st.live[j]? = some (b, m) → k ≠ j → a ≠ b := by
    intro k j a b n m e1 e2 hne hab
    have hk : k < st.live.length := (List.getElem?_eq_some_iff.1 e1).1
    have h1 : (st.live.map (·.1))[k]? = (st.live.map (·.1))[j]? := by
      rw [List.getElem?_map, List.getElem?_map, e1, e2]
      simp [hab]
    exact hne ((List.getElem?_inj (by simpa using hk) hi.heap.nodup).1 h1)
  cases op with
  | alloc n =>
    rcases allocate_spec hi.heap ho with e | ⟨h', a, b, e, i', ha, fr, hb, hn, hz, _⟩
    · left; simp only [step, e, Out.exit_bind]
    · right
      refine ⟨⟨h', st.live ++ [(a, n)]⟩, by simp only [step, e, Out.ok_bind], ?_, ?_, ?_⟩
      · simp only [List.map_append, List.map_cons, List.map_nil]
        exact i'.perm (List.perm_append_singleton _ _).symm
      · simp [specStep, Spec.Mem.alloc, hi.len]
      · intro k x m hk
        simp only [specStep, Spec.Mem.alloc]
        rw [List.getElem?_append] at hk ⊢
        split at hk
        · rename_i hlt
          obtain ⟨b1, c1, h1, h2, h3⟩ := hi.holds k x m hk
          rw [if_pos (by rw [hi.len]; exact hlt)]
          exact ⟨b1, c1, by simp only [fr x (hmem hk)]; exact h1, h2, h3⟩
        · rename_i hlt
          have hk0 : k - st.live.length = 0 := by
            have := (List.getElem?_eq_some_iff.1 hk).1
            simp at this
            omega
          rw [hk0] at hk
          simp only [List.getElem?_cons_zero, Option.some.injEq, Prod.mk.injEq] at hk
          obtain ⟨rfl, rfl⟩ := hk
          rw [if_neg (by rw [hi.len]; exact hlt), hi.len, hk0]
          refine ⟨b, _, hb, rfl, by simp, ?_, ?_⟩
          · simpa using hn
          · intro i y hy
            rw [List.getElem?_replicate] at hy
            split at hy
            · rename_i hin
              cases z with
              | true =>
                simp only [if_true, Option.some.injEq] at hy
                subst hy
                rw [hz rfl, List.getElem?_replicate, if_pos (by omega)]
              | false => simp at hy
            · cases hy
  | free k =>
    right
    cases hk : st.live[k]? with
    | none =>
      have hlen : st.live.length ≤ k := List.getElem?_eq_none_iff.1 hk
      refine ⟨st, by simp only [step, hk], hi.heap, ?_, ?_⟩
      · simp only [specStep, Spec.Mem.release]
        rw [List.eraseIdx_of_length_le (by have := hi.len; omega)]
        exact hi.len
      · simp only [specStep, Spec.Mem.release]
        rw [List.eraseIdx_of_length_le (by have := hi.len; omega)]
        exact hi.holds
    | some p =>
      obtain ⟨a, n⟩ := p
      have hp : (st.live.map (·.1)).Perm (a :: (st.live.eraseIdx k).map (·.1)) := by
        have := (perm_eraseIdx hk).map (·.1)
        simpa using this
      obtain ⟨h', e, i', fr, _⟩ := free_spec (hi.heap.perm hp)
      refine ⟨⟨h', st.live.eraseIdx k⟩, by simp only [step, hk, e, Out.ok_bind], i', ?_, ?_⟩
      · simp only [specStep, Spec.Mem.release, List.length_eraseIdx, hi.len]
      · intro j x m hj
        have hin : x ∈ (st.live.eraseIdx k).map (·.1) := List.mem_map.2 ⟨(x, m), List.mem_of_getElem? hj, rfl⟩
        simp only [specStep, Spec.Mem.release]
        rw [List.getElem?_eraseIdx] at hj ⊢
        simp only [fr x hin]
        split at hj
        · rename_i hlt
          rw [if_pos hlt]
          exact hi.holds j x m hj
        · rename_i hlt
          rw [if_neg hlt]
          exact hi.holds (j + 1) x m hj
  | realloc k n =>
    cases hk : st.live[k]? with
    | none =>
      right
      have hlen : st.live.length ≤ k := List.getElem?_eq_none_iff.1 hk
      have hc : specStep (if z then some 0 else none) cs (.realloc k n) = cs := by
        simp only [specStep, Spec.Mem.resize]
        exact List.modify_eq_self (by have := hi.len; omega)
      exact ⟨st, by simp only [step, hk], by rw [hc]; exact hi⟩
    | some p =>
      obtain ⟨a, m⟩ := p
      have hlt : k < st.live.length := (List.getElem?_eq_some_iff.1 hk).1
      have hp : (st.live.map (·.1)).Perm (a :: (st.live.eraseIdx k).map (·.1)) := by
        have := (perm_eraseIdx hk).map (·.1)
        simpa using this
      rcases reallocate_spec (hi.heap.perm hp) ho with e | ⟨h', a', b, b', e, i', hb, hb', ht, hn, fr, _⟩
      · left; simp only [step, hk, e, Out.exit_bind]
      · right
        refine ⟨⟨h', st.live.set k (a', n)⟩, by simp only [step, hk, e, Out.ok_bind], ?_, ?_, ?_⟩
        · have hk' : (st.live.set k (a', n))[k]? = some (a', n) := by
            rw [List.getElem?_set, if_pos rfl, if_pos hlt]
          have := (perm_eraseIdx hk').map (·.1)
          rw [List.eraseIdx_set_eq] at this
          exact i'.perm (by simpa using this.symm)
        · simp [specStep, Spec.Mem.resize, hi.len]
        · intro j x q hj
          simp only [specStep, Spec.Mem.resize]
          rw [List.getElem?_set] at hj
          rw [List.getElem?_modify]
          by_cases hkj : k = j
          · subst hkj
            rw [if_pos rfl, if_pos hlt] at hj
            cases hj
            obtain ⟨b1, c1, h1, h2, h3, h4⟩ := hi.holds k a m hk
            rw [hb] at h1
            cases h1
            rw [h2]
            refine ⟨b', Spec.Mem.resized c1 n, hb', by simp, ?_, Holds.of_take h4 ht n hn⟩
            simp only [Spec.Mem.resized, List.length_append, List.length_take, List.length_replicate]
            omega
          · rw [if_neg hkj] at hj
            obtain ⟨b1, c1, h1, h2, h3, h4⟩ := hi.holds j x q hj
            have hxa : x ≠ a := fun e => hdist hj hk (fun e => hkj e.symm) e
            have hin : x ∈ (st.live.eraseIdx k).map (·.1) := by
              have := hp.mem_iff.1 (hmem hj)
              rcases List.mem_cons.1 this with e | h
              · exact absurd e hxa
              · exact h
            rw [h2]
            exact ⟨b1, c1, by simp only [fr x hin]; exact h1, by simp [hkj], h3, h4⟩
  | write k off bytes =>
    right
    cases hk : st.live[k]? with
    | none =>
      have hlen : st.live.length ≤ k := List.getElem?_eq_none_iff.1 hk
      have hc : specStep (if z then some 0 else none) cs (.write k off bytes) = cs := by
        simp only [specStep, Spec.Mem.store]
        exact List.modify_eq_self (by have := hi.len; omega)
      exact ⟨st, by simp only [step, hk], by rw [hc]; exact hi⟩
    | some p =>
      obtain ⟨a, m⟩ := p
      obtain ⟨b, c, hb, hc, hcm, hh⟩ := hi.holds k a m hk
      simp only [step, hk]
      split
      · rename_i hle
        have hoff : off + bytes.length ≤ b.data.length := by have := hh.1; omega
        obtain ⟨h', e, i', fr, hb'⟩ := store_spec hi.heap (hmem hk) hb hoff
        refine ⟨⟨h', st.live⟩, by simp only [e, Out.ok_bind], i', ?_, ?_⟩
        · simp [specStep, Spec.Mem.store, hi.len]
        · intro j x q hj
          simp only [specStep, Spec.Mem.store]
          rw [List.getElem?_modify]
          by_cases hkj : k = j
          · subst hkj
            rw [hk] at hj
            cases hj
            rw [hc]
            refine ⟨_, Spec.Mem.stored c off bytes, hb', by simp, ?_, Holds.stored hh (by omega)⟩
            unfold Spec.Mem.stored
            rw [if_pos (by omega)]
            simpa using hcm
          · obtain ⟨b1, c1, h1, h2, h3, h4⟩ := hi.holds j x q hj
            have hxa : x ≠ a := fun e => hdist hj hk (fun e => hkj e.symm) e
            rw [h2]
            exact ⟨b1, c1, by simp only [fr x hxa]; exact h1, by simp [hkj], h3, h4⟩
      · rename_i hgt
        have hcs : specStep (if z then some 0 else none) cs (.write k off bytes) = cs := by
          simp only [specStep, Spec.Mem.store]
          apply List.ext_getElem?
          intro j
          rw [List.getElem?_modify]
          by_cases hkj : k = j
          · subst hkj
            rw [hc]
            have hst : Spec.Mem.stored c off bytes = c := by
              unfold Spec.Mem.stored
              rw [if_neg (by omega)]
            simp [hst]
          · simp [hkj]
        exact ⟨st, rfl, by rw [hcs]; exact hi⟩
  | pool n junk =>
    rcases poolInit_spec hi.heap ho.1 ho.2 with e | ⟨h', e, i', fr⟩
    · left; simp only [step, e, Out.exit_bind]
    · right
      refine ⟨⟨h', st.live⟩, by simp only [step, e, Out.ok_bind], i', hi.len, ?_⟩
      intro j x q hj
      simp only [fr x (hmem hj)]
      exact hi.holds j x q hj
  | limit n =>
    right
    refine ⟨_, rfl, ?_, hi.len, hi.holds⟩
    exact { nodup := hi.heap.nodup, blk := hi.heap.blk, freeShape := hi.heap.freeShape,
            freeMem := hi.heap.freeMem, freeOut := hi.heap.freeOut, freeNodup := hi.heap.freeNodup,
            count := hi.heap.count, untouched := hi.heap.untouched, off := hi.heap.off,
            area := hi.heap.area, used := hi.heap.used, ledger := hi.heap.ledger, fits := hi.heap.fits }

theorem run_inv {z : Bool} : ∀ {ops : List Op} {st : St} {cs : List Known}, Inv z st cs →
    (∀ op ∈ ops, OpOk z op) → run st ops = .exit ∨ ∃ st', run st ops = .ok st' ∧
      Inv z st' (ops.foldl (specStep (if z then some 0 else none)) cs)
  | [], st, cs, hi, _ => .inr ⟨st, rfl, hi⟩
  | op :: ops, st, cs, hi, ho => by
    rcases step_inv hi (ho op List.mem_cons_self) with e | ⟨st1, e, i1⟩
    · left; simp only [run, e, Out.exit_bind]
    · rcases run_inv i1 (fun o h => ho o (List.mem_cons_of_mem _ h)) with e2 | ⟨st2, e2, i2⟩
      · left; simp only [run, e, Out.ok_bind, e2]
      · right; exact ⟨st2, by simp only [run, e, Out.ok_bind, e2], i2⟩

theorem inv_start (z : Bool) (limit : Nat) : Inv z (start limit) [] where
  heap := by
    refine { nodup := List.nodup_nil, blk := ?_, freeShape := ?_, freeMem := ?_, freeOut := ?_, freeNodup := ?_,
             count := ?_, untouched := ?_, off := ?_, area := ?_, used := rfl, ledger := rfl,
             fits := by simp [start, Heap.init] }
    · intro a h; cases h
    · intro c a h; cases h
    · intro c a h; cases h
    · intro c a h; cases h
    · intro c; exact List.nodup_nil
    · intro c; exact Nat.le_refl _
    · intro c i _ h; cases h
    · intro _ c; rfl
    · intro c i h; cases h
  len := rfl
  holds := by intro k a n h; simp [start] at h

theorem run_append {st : St} : ∀ {xs ys : List Op}, run st (xs ++ ys) = (run st xs).bind (run · ys) := by
  intro xs
  induction xs generalizing st with
  | nil => intro ys; rfl
  | cons x xs ih =>
    intro ys
    simp only [List.cons_append, run]
    cases step st x with
    | ok s => exact ih
    | ub => rfl
    | exit => rfl

end Verif.Model.Mem
