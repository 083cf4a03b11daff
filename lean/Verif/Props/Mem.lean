import Verif.Lemmas.Mem

/-!
# Properties of the memory manager (C17, C18, C19, C47)

Histories are arbitrary lists of client operations starting from the program start; see `Verif.Model.Mem.Op`.
`OpOk` collects what the guarded theorems assume about requests; what happens outside is shown by the
`_violated` theorems.
-/

namespace Verif.Props.Mem

open Verif.Model Verif.Model.Mem
open Verif.Spec.Mem (Known Holds Apart)

/-- Bytes of memory the blocks of the program occupy (block width words included). -/
def occupied (st : St) : Nat :=
  (st.live.map fun p =>
    match st.heap.mem p.1 with
    | some b => b.data.length + 8
    | none => 0).sum

/-- A state some history leads to. -/
def Reached (z : Bool) (limit : Nat) (ops : List Op) (st : St) : Prop :=
  (∀ op ∈ ops, OpOk z op) ∧ run (start limit) ops = .ok st

theorem occupied_eq (st : St) : occupied st = weight st.heap (st.live.map (·.1)) := by
  unfold occupied weight
  rw [List.map_map]
  rfl

theorem Reached.inv {z : Bool} {limit : Nat} {ops : List Op} {st : St} (h : Reached z limit ops st) :
    Inv z st (ops.foldl (specStep (if z then some 0 else none)) []) := by
  rcases run_inv (inv_start z limit) h.1 with e | ⟨st', e, hi⟩
  · rw [h.2] at e; cases e
  · rw [h.2] at e; cases e; exact hi

/-- Zeroed memory. -/
def zeroJunk : Cls → Nat → Block := fun _ _ => ⟨0, []⟩

/-- Memory with leftovers. -/
def dirtyJunk : Cls → Nat → Block := fun _ _ => ⟨7, [7, 7, 7]⟩

/-- A history that uses the pool, the system, resizing, releasing and storing. -/
def sample : List Op :=
  [.alloc 100, .pool 3000 zeroJunk, .alloc 20, .alloc 50, .write 1 3 [1, 2], .realloc 1 200, .free 2,
   .alloc 40, .limit 5000]

theorem sample_ok : ∀ op ∈ sample, OpOk true op := by
  intro op h
  simp only [sample, List.mem_cons, List.not_mem_nil, or_false] at h
  rcases h with rfl | rfl | rfl | rfl | rfl | rfl | rfl | rfl | rfl <;> simp [OpOk, zeroJunk]

theorem sample_runs : ∃ st, run (start 1000) sample = .ok st ∧ st.live =
    [(.os 0, 100), (.os 1, 200), (.pod .m 0, 40)] ∧ st.heap.ledger = 108 + 208 + 64 ∧
    clsOf (bucketRaw st.heap (40 + 8)) = some .m ∧ occupied st ≤ st.heap.limit := by
  obtain ⟨st, h1, h2⟩ := Out.of_sat (o := run (start 1000) sample) (p := fun st => decide (st.live =
    [(.os 0, 100), (.os 1, 200), (.pod .m 0, 40)] ∧ st.heap.ledger = 108 + 208 + 64 ∧
    clsOf (bucketRaw st.heap (40 + 8)) = some .m ∧ occupied st ≤ st.heap.limit)) (by decide +kernel)
  exact ⟨st, h1, of_decide_eq_true h2⟩

theorem sample_reached : ∃ st, Reached true 1000 sample st ∧ st.live.length = 3 := by
  obtain ⟨st, h, hl, _⟩ := sample_runs
  exact ⟨st, ⟨sample_ok, h⟩, by rw [hl]; rfl⟩

/-! ## C17: the ledger -/

/-- After every history the ledger equals the memory occupied by the blocks in use. -/
theorem C17_ledger {z : Bool} {limit : Nat} {ops : List Op} {st : St} (h : Reached z limit ops st) :
    st.heap.ledger = occupied st := by
  have := h.inv.heap
  rw [occupied_eq, this.ledger, this.used]

/-- Once every block is released the ledger is zero. -/
theorem C17_zero {z : Bool} {limit : Nat} {ops : List Op} {st : St} (h : Reached z limit ops st)
    (hl : st.live = []) : st.heap.ledger = 0 := by
  rw [C17_ledger h]
  simp [occupied, hl]

/-- Releasing all blocks, in any reachable state, is possible and leaves a ledger of zero. -/
theorem C17_release_all {z : Bool} {limit : Nat} {ops : List Op} {st : St} (h : Reached z limit ops st) :
    ∃ st', run st (List.replicate st.live.length (.free 0)) = .ok st' ∧ st'.live = [] ∧ st'.heap.ledger = 0 := by
  have key : ∀ n (st : St) (cs : List Known), Inv z st cs → st.live.length = n →
      ∃ st' cs', run st (List.replicate n (.free 0)) = .ok st' ∧ st'.live = [] ∧ Inv z st' cs' := by
    intro n
    induction n with
    | zero =>
      intro st cs hi hl
      exact ⟨st, cs, rfl, List.length_eq_zero_iff.1 hl, hi⟩
    | succ n ih =>
      intro st cs hi hl
      rcases step_inv (op := .free 0) hi trivial with e | ⟨s1, e, i1⟩
      · exfalso
        simp only [step] at e
        split at e
        · cases e
        · rename_i a m hk
          have hp := (perm_eraseIdx hk).map (·.1)
          obtain ⟨h', e', _⟩ := free_spec (hi.heap.perm (by simpa using hp))
          rw [e'] at e
          cases e
      · have hl1 : s1.live.length = n := by
          cases hk : st.live[0]? with
          | none => simp at hk; rw [hk] at hl; simp at hl
          | some p =>
            obtain ⟨a, m⟩ := p
            simp only [step, hk] at e
            rcases hfr : Mem.free st.heap a with h' | _ | _
            · rw [hfr, Out.ok_bind] at e
              cases e
              simp only [List.length_eraseIdx]
              rw [if_pos (by omega)]
              omega
            · rw [hfr] at e; cases e
            · rw [hfr] at e; cases e
        obtain ⟨s2, cs2, e2, hl2, i2⟩ := ih s1 _ i1 hl1
        exact ⟨s2, cs2, by simp only [List.replicate_succ, run, e, Out.ok_bind, e2], hl2, i2⟩
  obtain ⟨st', cs', e, hl, hi⟩ := key _ st _ h.inv rfl
  refine ⟨st', e, hl, ?_⟩
  rw [hi.heap.ledger, hi.heap.used, hl]
  rfl

/-- A request that would pass the memory limit ends the program. -/
theorem C17_limit {z : Bool} {limit : Nat} {ops : List Op} {st : St} {n : Nat} (h : Reached z limit ops st)
    (hn : n + 9 < 4294967296) (hp : st.heap.limit < occupied st + (n + 8)) :
    step st (.alloc n) = .exit := by
  rcases allocate_spec h.inv.heap hn with e | ⟨h', a, b, e, i', ha, fr, hb, hbn, _, hlim, hl, _⟩
  · simp only [step, e, Out.exit_bind]
  · exfalso
    have h1 := i'.ledger
    have h2 := i'.used
    rw [weight_cons, weight_congr fr, ← occupied_eq] at h2
    have h3 : extent h' a = b.data.length + 8 := by simp [extent, hb]
    omega

/-- Full claim: no operation leaves more memory in use than the limit allows. It is false: growing a block
is not checked against the limit. -/
theorem C17_violated : ¬ ∀ (limit : Nat) (ops : List Op) (st : St), Reached true limit ops st →
    (∀ op ∈ ops, ∀ m, op ≠ .limit m) → occupied st ≤ limit := by
  intro h
  obtain ⟨st, h1, h2⟩ := Out.of_sat (o := run (start 100) [.alloc 8, .realloc 0 1000])
    (p := fun st => decide (¬ occupied st ≤ 100)) (by decide +kernel)
  exact of_decide_eq_true h2 (h 100 [.alloc 8, .realloc 0 1000] st
    ⟨by intro op ho; simp at ho; rcases ho with rfl | rfl <;> simp [OpOk], h1⟩
    (by intro op ho m; simp at ho; rcases ho with rfl | rfl <;> simp))

/-- Histories without growing blocks stay inside the limit. -/
theorem C17_limit_partial {z : Bool} {limit : Nat} {ops : List Op} {st : St} (h : Reached z limit ops st)
    (hr : ∀ op ∈ ops, (∀ k n, op ≠ .realloc k n) ∧ ∀ m, op ≠ .limit m) : occupied st ≤ limit := by
  have key : ∀ (ops : List Op) (s s' : St) (cs : List Known), Inv z s cs → (∀ op ∈ ops, OpOk z op) →
      (∀ op ∈ ops, (∀ k n, op ≠ .realloc k n) ∧ ∀ m, op ≠ .limit m) → s.heap.ledger ≤ limit →
      s.heap.limit = limit → run s ops = .ok s' → s'.heap.ledger ≤ limit := by
    intro ops
    induction ops with
    | nil => intro s s' cs _ _ _ hl _ e; cases e; exact hl
    | cons op ops ih =>
      intro s s' cs hi ho hr hl hlim e
      rcases step_inv hi (ho op List.mem_cons_self) with e1 | ⟨s1, e1, i1⟩
      · simp only [run, e1, Out.exit_bind] at e; cases e
      · simp only [run, e1, Out.ok_bind] at e
        have hstep : s1.heap.ledger ≤ limit ∧ s1.heap.limit = limit := by
          cases op with
          | alloc n =>
            rcases allocate_spec hi.heap (ho _ List.mem_cons_self) with q | ⟨h', a, b, q, i', _, _, _, _, _, q1, q2, _⟩
            · simp only [step, q, Out.exit_bind] at e1; cases e1
            · simp only [step, q, Out.ok_bind] at e1
              cases e1
              simp only
              omega
          | free k =>
            cases hk : s.live[k]? with
            | none => simp only [step, hk] at e1; cases e1; exact ⟨hl, hlim⟩
            | some p =>
              obtain ⟨a, m⟩ := p
              have hp : (s.live.map (·.1)).Perm (a :: (s.live.eraseIdx k).map (·.1)) := by
                have := (perm_eraseIdx hk).map (·.1)
                simpa using this
              obtain ⟨h', q, i', fr, q2, _⟩ := free_spec (hi.heap.perm hp)
              simp only [step, hk, q, Out.ok_bind] at e1
              cases e1
              refine ⟨?_, by simp only [q2, hlim]⟩
              have a1 := i'.ledger
              have a2 := i'.used
              have a3 := hi.heap.ledger
              have a4 := hi.heap.used
              rw [weight_perm hp, weight_cons, ← weight_congr fr] at a4
              simp only
              omega
          | realloc k n => exact absurd rfl ((hr _ List.mem_cons_self).1 k n)
          | write k off bytes =>
            simp only [step] at e1
            split at e1
            · cases e1; exact ⟨hl, hlim⟩
            · split at e1
              · rename_i a n hk hle
                unfold store at e1
                split at e1
                · cases e1
                · split at e1
                  · cases e1; exact ⟨hl, hlim⟩
                  · cases e1
              · cases e1; exact ⟨hl, hlim⟩
          | pool n junk =>
            simp only [step] at e1
            unfold poolInit at e1
            split at e1
            · cases e1; exact ⟨hl, hlim⟩
            · split at e1
              · cases e1
              · cases e1; exact ⟨hl, hlim⟩
          | limit n => exact absurd rfl ((hr _ List.mem_cons_self).2 n)
        exact ih s1 s' _ i1 (fun o h => ho o (List.mem_cons_of_mem _ h))
          (fun o h => hr o (List.mem_cons_of_mem _ h)) hstep.1 hstep.2 e
  rw [← C17_ledger h]
  exact key ops _ st [] (inv_start z limit) h.1 hr (Nat.zero_le _) rfl h.2

example : ∃ st, Reached true 200 [.alloc 100, .alloc 20] st ∧ occupied st = 136 ∧
    200 < occupied st + (57 + 8) := by
  obtain ⟨st, h1, h2⟩ := Out.of_sat (o := run (start 200) [.alloc 100, .alloc 20])
    (p := fun st => decide (occupied st = 136)) (by decide +kernel)
  have h2 := of_decide_eq_true h2
  exact ⟨st, ⟨by intro op ho; simp at ho; rcases ho with rfl | rfl <;> simp [OpOk], h1⟩, h2, by omega⟩

example : ∃ st, Reached true 1000 sample st ∧ st.heap.ledger = 380 := by
  obtain ⟨st, h, _, hl, _⟩ := sample_runs
  exact ⟨st, ⟨sample_ok, h⟩, hl⟩

/-! ## C18: the pool -/

/-- Where the first byte of a block is: a pool area or a block of the system, and the offset in it. -/
def place : Addr → (Cls ⊕ Nat) × Nat
  | .pod c i => (.inl c, i * c.size)
  | .os id => (.inr id, 0)

/-- No history makes the memory manager touch memory that does not exist, release a pod to the system or
overrun a free list: it ends normally or the program exits. -/
theorem C18_safe_partial {z : Bool} (limit : Nat) {ops : List Op} (ho : ∀ op ∈ ops, OpOk z op) :
    run (start limit) ops ≠ .ub := by
  rcases run_inv (inv_start z limit) ho with e | ⟨st, e, _⟩ <;> rw [e] <;> simp

/-- Two blocks in use have no byte in common (the width word in front of each block included). -/
theorem C18_apart_partial {z : Bool} {limit : Nat} {ops : List Op} {st : St} (h : Reached z limit ops st)
    {j k : Nat} {a b : Addr} {n m : Nat} (hj : st.live[j]? = some (a, n)) (hk : st.live[k]? = some (b, m))
    (hne : j ≠ k) (hr : (place a).1 = (place b).1) : Apart (place a).2 (n + 8) (place b).2 (m + 8) := by
  have hi := h.inv
  have hab : a ≠ b := by
    intro e
    have hlt : j < st.live.length := (List.getElem?_eq_some_iff.1 hj).1
    have h1 : (st.live.map (·.1))[j]? = (st.live.map (·.1))[k]? := by
      rw [List.getElem?_map, List.getElem?_map, hj, hk]
      simp [e]
    exact hne ((List.getElem?_inj (by simpa using hlt) hi.heap.nodup).1 h1)
  have size : ∀ {i : Nat} {c : Cls} {x q : Nat}, st.live[i]? = some (.pod c x, q) → q + 8 ≤ c.size := by
    intro i c x q e
    obtain ⟨b', c', h1, h2, h3, h4⟩ := hi.holds i _ _ e
    obtain ⟨b2, g1, g2, g3⟩ := hi.heap.blk (.pod c x) (List.mem_map.2 ⟨_, List.mem_of_getElem? e, rfl⟩)
    rw [h1] at g1
    cases g1
    have := h4.1
    have := g3.1
    omega
  cases a with
  | os x =>
    cases b with
    | os y =>
      simp only [place, Sum.inr.injEq] at hr
      exact absurd (by rw [hr]) hab
    | pod c y => cases hr
  | pod c x =>
    cases b with
    | os y => cases hr
    | pod c' y =>
      simp only [place, Sum.inl.injEq] at hr
      subst hr
      have s1 := size hj
      have s2 := size hk
      intro t ht
      simp only [place] at ht
      obtain ⟨t1, t2, t3, t4⟩ := ht
      have hxy : x ≠ y := fun e => hab (by rw [e])
      rcases Nat.lt_or_gt_of_ne hxy with hlt | hlt
      · have : (x + 1) * c.size ≤ y * c.size := Nat.mul_le_mul_right _ hlt
        rw [Nat.succ_mul] at this
        omega
      · have : (y + 1) * c.size ≤ x * c.size := Nat.mul_le_mul_right _ hlt
        rw [Nat.succ_mul] at this
        omega

/-- A block that lives in a pool area lies completely inside that area. -/
theorem C18_inside_partial {z : Bool} {limit : Nat} {ops : List Op} {st : St} (h : Reached z limit ops st)
    {k : Nat} {a : Addr} {n : Nat} {c : Cls} (hk : st.live[k]? = some (a, n)) (hr : (place a).1 = .inl c) :
    (place a).2 + (n + 8) ≤ st.heap.area := by
  have hi := h.inv
  cases a with
  | os x => cases hr
  | pod c' x =>
    obtain ⟨b', k', h1, h2, h3, h4⟩ := hi.holds k _ _ hk
    obtain ⟨b2, g1, g2, g3⟩ := hi.heap.blk (.pod c' x) (List.mem_map.2 ⟨_, List.mem_of_getElem? hk, rfl⟩)
    rw [h1] at g1
    cases g1
    have q1 := h4.1
    have q2 := g3.1
    have q3 := hi.heap.count c'
    have q4 := hi.heap.area c' x (by have := g3.2; omega)
    simp only [place]
    rw [Nat.succ_mul] at q4
    omega

/-- As long as the pool of its class was never used up, a released pod is the next one handed out. -/
theorem C18_reuse_partial {z : Bool} {limit : Nat} {ops : List Op} {st : St} (h : Reached z limit ops st)
    {k i n m : Nat} {c : Cls} (hk : st.live[k]? = some (.pod c i, m)) (hn : n + 9 < 4294967296)
    (hc : clsOf (bucketRaw st.heap (n + 8)) = some c) (hl : occupied st ≤ st.heap.limit) :
    ∃ st', run st [.free k, .alloc n] = .ok st' ∧ st'.live = st.live.eraseIdx k ++ [(.pod c i, n)] := by
  have hi := h.inv
  have hp : (st.live.map (·.1)).Perm (.pod c i :: (st.live.eraseIdx k).map (·.1)) := by
    have := (perm_eraseIdx hk).map (·.1)
    simpa using this
  have hi2 := hi.heap.perm hp
  obtain ⟨b, hb, hw, hs⟩ := hi2.blk _ List.mem_cons_self
  have hnf : ∀ c', Addr.pod c i ∉ st.heap.free c' := fun c' hx => hi2.freeOut c' _ hx List.mem_cons_self
  have hroom := hi2.toCore.free_room (hnf c) hs.2
  have hpools : st.heap.usePools = true := by
    cases hq : st.heap.usePools with
    | true => rfl
    | false => have := hi2.off hq c; omega
  have hge := c.size_ge
  have hle := c.size_le
  have hsz := hs.1
  have hpd : poolDealloc st.heap (.pod c i) = .ok { st.heap with
      used := st.heap.used - (b.data.length + 8)
      free := upd st.heap.free c (.pod c i :: st.heap.free c)
      mem := upd st.heap.mem (.pod c i) (some ⟨0, List.replicate (c.size - 8) 0⟩) } := by
    unfold poolDealloc
    simp only [hb, hsz, clsOf_size, hroom, if_true, hpools, Bool.not_true, Bool.false_eq_true, if_false]
    rw [if_neg (by omega), List.drop_eq_nil_of_le (by omega), List.append_nil]
  have hledger := hi.heap.ledger
  have hused := hi2.used
  rw [weight_cons] at hused
  have hext : extent st.heap (.pod c i) = b.width := by simp [extent, hb, hw]
  have hfit := hi.heap.fits
  have hocc : occupied st = st.heap.used := by rw [occupied_eq, hi.heap.used]
  have hraw := clsOf_some hc
  simp only [run, step, hk, Mem.free, hb, hpd, Out.ok_bind]
  rw [if_neg (by omega)]
  have hwr : wrap (n + 8) = n + 8 := wrap_small (by omega)
  have hbk : ∀ g : Heap, g.count = st.heap.count → g.pods = st.heap.pods → bucket g (wrap (n + 8)) = c.size := by
    intro g g1 g2
    have e : bucketRaw g (n + 8) = bucketRaw st.heap (n + 8) := by unfold bucketRaw; rw [g1, g2]
    rw [hwr]
    unfold bucket
    rw [e, hraw]
    exact throughInt_small (by omega) (by unfold throughInt; simp only; split <;> omega)
  obtain ⟨h', e, hm⟩ : ∃ h', allocate { st.heap with
      used := st.heap.used - (b.data.length + 8)
      free := upd st.heap.free c (.pod c i :: st.heap.free c)
      mem := upd st.heap.mem (.pod c i) (some ⟨0, List.replicate (c.size - 8) 0⟩)
      ledger := st.heap.ledger - b.width } n = .ok (h', .pod c i) ∧ True := by
    simp only [allocate]
    rw [hbk { st.heap with
      used := st.heap.used - (b.data.length + 8)
      free := upd st.heap.free c (.pod c i :: st.heap.free c)
      mem := upd st.heap.mem (.pod c i) (some ⟨0, List.replicate (c.size - 8) 0⟩)
      ledger := st.heap.ledger - b.width } rfl rfl]
    rw [wrap_small (by omega), if_neg (by omega)]
    simp only [poolAlloc]
    rw [if_neg (by omega)]
    simp only [hpools, if_true, clsOf_size, Option.bind_some, takePod, upd_same, Out.ok_bind, setWidth]
    rw [if_neg (by omega)]
    exact ⟨_, rfl, trivial⟩
  rw [e]
  exact ⟨_, rfl, rfl⟩

/-- A request within the limit is always served, whether or not the pool has pods left. -/
theorem C18_served {z : Bool} {limit : Nat} {ops : List Op} {st : St} {n : Nat} (h : Reached z limit ops st)
    (hn : n + 9 < 2147483648) (hl : occupied st + (n + 128) ≤ st.heap.limit)
    (hm : occupied st + (n + 128) < 9223372036854775808) :
    ∃ st' a, step st (.alloc n) = .ok st' ∧ st'.live = st.live ++ [(a, n)] := by
  have hi := h.inv
  have h1 := hi.heap.ledger
  have h2 : occupied st = st.heap.used := by rw [occupied_eq, hi.heap.used]
  have hw : wrap (n + 8) = n + 8 := wrap_small (by omega)
  have hr := (bucketRaw_ok st.heap (n := n + 8) (by omega)).2.1
  have hb : bucket st.heap (n + 8) = bucketRaw st.heap (n + 8) :=
    throughInt_small (by omega) (by unfold throughInt; simp only; split <;> omega)
  rcases allocate_spec hi.heap (n := n) (by omega) with e | ⟨h', a, b, e, _⟩
  · exfalso
    unfold allocate at e
    simp only [hw, hb] at e
    rw [wrap_small (by omega), if_neg (by omega)] at e
    unfold poolAlloc at e
    rw [if_neg (by simp only; omega)] at e
    have hos : ∀ g : Heap, osAlloc g (bucketRaw st.heap (n + 8)) ≠ .exit := by
      intro g
      unfold osAlloc
      rw [if_neg (by omega)]
      simp
    have hsw : ∀ (g : Heap) (x : Addr) (s : Nat), (setWidth g x s).bind (fun q => Out.ok (q, x)) ≠ .exit := by
      intro g x s
      unfold setWidth
      split
      · simp [Out.bind]
      · split <;> simp [Out.bind]
    simp only at e
    split at e
    · exact hsw _ _ _ e
    · rcases hq : osAlloc { st.heap with ledger := st.heap.ledger + bucketRaw st.heap (n + 8) }
        (bucketRaw st.heap (n + 8)) with ⟨g, x⟩ | _ | _
      · rw [hq] at e
        exact hsw _ _ _ e
      · rw [hq] at e; cases e
      · exact hos _ hq
  · exact ⟨_, a, by simp only [step, e, Out.ok_bind]; rfl, rfl⟩

/-- The hypotheses are met in a state in which the class has no pod left. -/
example : ∃ st, Reached true 1000 [.pool 400 zeroJunk, .alloc 40] st ∧ occupied st + (40 + 128) ≤ st.heap.limit ∧
    st.heap.count .m = st.heap.pods .m := by
  obtain ⟨st, h1, h2⟩ := Out.of_sat (o := run (start 1000) [.pool 400 zeroJunk, .alloc 40])
    (p := fun st => decide (occupied st + (40 + 128) ≤ st.heap.limit ∧ st.heap.count .m = st.heap.pods .m))
    (by decide +kernel)
  exact ⟨st, ⟨by
    intro op ho
    simp at ho
    rcases ho with rfl | rfl <;> simp [OpOk, zeroJunk], h1⟩, of_decide_eq_true h2⟩

/-- Full claim: every pool size the program accepts works. It is false: with a pool of 300 to 383 bytes the
number of large pods wraps around and the first large request gets a pod outside the pool. -/
theorem C18_violated : ¬ ∀ (pool n : Nat) (junk : Cls → Nat → Block), pool < 4294967296 → n < 4294967296 - 9 →
    run (start 1000000) [.pool pool junk, .alloc n] ≠ .ub := by
  intro h
  exact h 300 100 zeroJunk (by decide) (by decide) (Out.of_isUb (by decide +kernel))

/-- Full claim: a released pod can be handed out again. It is false once all pods of the class have been
handed out: the class is never used again and the request goes to the system. -/
theorem C18_reuse_violated : ¬ ∀ (limit : Nat) (ops : List Op) (st : St) (c : Cls) (i n : Nat),
    Reached true limit ops st → st.live[0]? = some (.pod c i, n) → occupied st ≤ limit →
    ∃ st' a m, run st [.free 0, .alloc n] = .ok st' ∧ st'.live.getLast? = some (.pod a m, n) := by
  intro h
  obtain ⟨st, h1, h2⟩ := Out.of_sat (o := run (start 1000000) [.pool 400 zeroJunk, .alloc 40])
    (p := fun st => decide (st.live[0]? = some (Addr.pod .m 0, 40) ∧ occupied st ≤ 1000000) &&
      Out.sat (run st [.free 0, .alloc 40]) (fun s => decide (s.live.getLast? = some (.os 0, 40)))) (by decide +kernel)
  obtain ⟨h2, h3⟩ := Bool.and_eq_true_iff.1 h2
  have h2 := of_decide_eq_true h2
  obtain ⟨s2, h3, h4⟩ := Out.of_sat h3
  have h4 := of_decide_eq_true h4
  obtain ⟨st', a, m, e, hl⟩ := h 1000000 [.pool 400 zeroJunk, .alloc 40] st .m 0 40 ⟨by
    intro op ho
    simp at ho
    rcases ho with rfl | rfl <;> simp [OpOk, zeroJunk], h1⟩ h2.1 h2.2
  rw [h3] at e
  cases e
  rw [h4] at hl
  cases hl

example : ∃ st, Reached true 1000 sample st ∧ st.live[2]? = some (.pod .m 0, 40) ∧
    clsOf (bucketRaw st.heap (40 + 8)) = some .m ∧ occupied st ≤ st.heap.limit := by
  obtain ⟨st, h, hl, _, h1, h2⟩ := sample_runs
  exact ⟨st, ⟨sample_ok, h⟩, by rw [hl]; rfl, h1, h2⟩

example : ∃ st, Reached true 1000 [.pool 3000 zeroJunk, .alloc 20, .alloc 24, .alloc 1] st ∧
    st.live = [(.pod .s 0, 20), (.pod .s 1, 24), (.pod .s 2, 1)] := by
  obtain ⟨st, h1, h2⟩ := Out.of_sat (o := run (start 1000) [.pool 3000 zeroJunk, .alloc 20, .alloc 24, .alloc 1])
    (p := fun st => decide (st.live = [(.pod .s 0, 20), (.pod .s 1, 24), (.pod .s 2, 1)])) (by decide +kernel)
  exact ⟨st, ⟨by
    intro op ho
    simp at ho
    rcases ho with rfl | rfl | rfl | rfl <;> simp [OpOk, zeroJunk], h1⟩, of_decide_eq_true h2⟩

/-! ## C19: contents -/

/-- For every history, each block in use has at least the requested size and holds what was last stored in
it, through any resizing of it and whatever happens to other blocks. -/
theorem C19_contents {limit : Nat} {ops : List Op} {st : St} (h : Reached false limit ops st)
    {k : Nat} {a : Addr} {n : Nat} (hk : st.live[k]? = some (a, n)) :
    ∃ (b : Block) (c : Known), st.heap.mem a = some b ∧ (ops.foldl (specStep none) [])[k]? = some c ∧
      c.length = n ∧ Holds c b.data := by
  have := h.inv.holds k a n hk
  simpa using this

/-- With pool memory that was zero when obtained (in particular without a pool) new blocks are zero as well:
in addition to what was stored, bytes of a block never written since its allocation are 0. -/
theorem C19_zeroed_partial {limit : Nat} {ops : List Op} {st : St} (h : Reached true limit ops st)
    {k : Nat} {a : Addr} {n : Nat} (hk : st.live[k]? = some (a, n)) :
    ∃ (b : Block) (c : Known), st.heap.mem a = some b ∧ (ops.foldl (specStep (some 0)) [])[k]? = some c ∧
      c.length = n ∧ Holds c b.data := by
  have := h.inv.holds k a n hk
  simpa using this

/-- Full claim: new blocks are always zero. It is false with a pool, whose memory is not cleared before a pod
is used for the first time. -/
theorem C19_violated : ¬ ∀ (limit : Nat) (ops : List Op) (st : St), Reached false limit ops st →
    ∀ (k : Nat) a n, st.live[k]? = some (a, n) →
    ∃ (b : Block) (c : Known), st.heap.mem a = some b ∧ (ops.foldl (specStep (some 0)) [])[k]? = some c ∧
      Holds c b.data := by
  intro h
  obtain ⟨st, e1, e2⟩ := Out.of_sat (o := run (start 1000) [.pool 3000 dirtyJunk, .alloc 20])
    (p := fun st => decide (st.live[0]? = some (Addr.pod .s 0, 20) ∧
      (st.heap.mem (.pod .s 0)).map (·.data[0]?) = some (some 7))) (by decide +kernel)
  have e2 := of_decide_eq_true e2
  obtain ⟨b, c, h1, h2, h3, h4⟩ := h 1000 [.pool 3000 dirtyJunk, .alloc 20] st ⟨by
    intro op ho
    simp at ho
    rcases ho with rfl | rfl <;> simp [OpOk], e1⟩ 0 (.pod .s 0) 20 e2.1
  have e3 := e2.2
  rw [h1] at e3
  simp only [Option.map_some, Option.some.injEq] at e3
  cases h2
  have := h4 0 0 rfl
  rw [e3] at this
  cases this

example : ∃ st, Reached true 1000 sample st ∧ st.live[1]? = some (.os 1, 200) ∧
    ((sample.foldl (specStep (some 0)) [])[1]?.map (·.take 6)) =
      some [some 0, some 0, some 0, some 1, some 2, some 0] := by
  obtain ⟨st, h, hl, _⟩ := sample_runs
  exact ⟨st, ⟨sample_ok, h⟩, by rw [hl]; rfl, by decide⟩

/-! ## C47: blocks are as large as requested -/

/-- Every block in use has room for the number of bytes that were requested. -/
theorem C47_size_partial {z : Bool} {limit : Nat} {ops : List Op} {st : St} (h : Reached z limit ops st)
    {k : Nat} {a : Addr} {n : Nat} (hk : st.live[k]? = some (a, n)) :
    ∃ b, st.heap.mem a = some b ∧ n ≤ b.data.length := by
  obtain ⟨b, c, h1, _, h3, h4⟩ := h.inv.holds k a n hk
  exact ⟨b, h1, by have := h4.1; omega⟩

/-- Full claim, for every request. It is false: the size passes through an `int`, and a request for 4 GB
yields a block without any room, whatever the limit. -/
theorem C47_violated : ¬ ∀ (limit n : Nat) (st : St), n < 18446744073709551616 - 8 →
    step (start limit) (.alloc n) = .ok st → ∀ a, st.live[0]? = some (a, n) →
    ∃ b, st.heap.mem a = some b ∧ n ≤ b.data.length := by
  intro h
  obtain ⟨st, e1, e2⟩ := Out.of_sat (o := step (start 10000000) (.alloc 4294967296))
    (p := fun st => decide (st.live[0]? = some (Addr.os 0, 4294967296) ∧
      (st.heap.mem (.os 0)).map (·.data.length) = some 0)) (by decide +kernel)
  have e2 := of_decide_eq_true e2
  obtain ⟨b, h1, h2⟩ := h 10000000 4294967296 st (by decide) e1 (.os 0) e2.1
  have e3 := e2.2
  rw [h1] at e3
  simp only [Option.map_some, Option.some.injEq] at e3
  omega

/-- The same when a block grows: the block stays as it was although 4 GB were requested, and the first store
past its end goes to memory that does not belong to it. -/
theorem C47_realloc_violated : ∃ st, run (start 10000000) [.alloc 100, .realloc 0 4294967296] = .ok st ∧
    st.live[0]? = some (.os 0, 4294967296) ∧ step st (.write 0 100 [1]) = .ub := by
  obtain ⟨st, e1, e2⟩ := Out.of_sat (o := run (start 10000000) [.alloc 100, .realloc 0 4294967296])
    (p := fun st => decide (st.live[0]? = some (Addr.os 0, 4294967296)) &&
      (step st (.write 0 100 [1])).isUb) (by decide +kernel)
  obtain ⟨h2, h3⟩ := Bool.and_eq_true_iff.1 e2
  exact ⟨st, e1, of_decide_eq_true h2, Out.of_isUb h3⟩

end Verif.Props.Mem
