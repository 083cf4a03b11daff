import Verif.Lemmas.Map
import Verif.Spec.Map
import Verif.Props.Seq

/-! # Properties C05, C11, C12 (maps) -/

namespace Verif.Props.Map

open Verif.Model

variable {κ ν : Type} [DecidableEq κ]

/-- Effect of a message on the mathematical map. -/
def specNext (f : κ → Option ν) : MapOp κ ν → (κ → Option ν)
  | .put k v => Spec.bind f k v
  | .delete k => Spec.unbind f k
  | _ => f

/-- What a message must answer when the map is `f`. -/
def SpecReply (f : κ → Option ν) : MapOp κ ν → MapReply ν → Prop
  | .put _ _, r => r = .self
  | .delete _, r => r = .self
  | .get k, r => r = .val (f k)
  | .count, r => ∃ n, r = .num n ∧ Spec.CountOf f n

/-- A history and its replies agree with the mathematical map. -/
def SpecRun (f : κ → Option ν) : List (MapOp κ ν) → List (MapReply ν) → Prop
  | [], rs => rs = []
  | op :: ops, rs => ∃ r rs', rs = r :: rs' ∧ SpecReply f op r ∧ SpecRun (specNext f op) ops rs'

/-- The bindings in order of (last) insertion. -/
def order : List (κ × ν) → List (MapOp κ ν) → List (κ × ν)
  | l, [] => l
  | l, .put k v :: ops => order (l.filter (fun kv => kv.1 ≠ k) ++ [(k, v)]) ops
  | l, .delete k :: ops => order (l.filter (fun kv => kv.1 ≠ k)) ops
  | l, _ :: ops => order l ops

/-! ### helper facts -/

theorem lookup_cons (l : List (κ × ν)) (k k' : κ) (v : ν) :
    PMap.lookup ((k, v) :: PMap.without l k) k' = if k' = k then some v else PMap.lookup l k' := by
  by_cases h : k' = k
  · simp [PMap.lookup, h]
  · rw [if_neg h]
    have h' : ¬ k = k' := fun e => h e.symm
    simp only [PMap.lookup, PMap.without, List.find?_cons, h', decide_false]
    rw [List.find?_filter]
    congr 2
    funext kv
    by_cases hk : kv.1 = k'
    · simp [hk, h]
    · simp [hk]

theorem lookup_without (l : List (κ × ν)) (k k' : κ) :
    PMap.lookup (PMap.without l k) k' = if k' = k then none else PMap.lookup l k' := by
  by_cases h : k' = k
  · rw [if_pos h]
    simp only [PMap.lookup, PMap.without, Option.map_eq_none_iff, List.find?_eq_none, List.mem_filter]
    intro kv hkv; rw [h]; simpa using hkv.2
  · rw [if_neg h]
    simp only [PMap.lookup, PMap.without]
    rw [List.find?_filter]
    congr 2
    funext kv
    by_cases hk : kv.1 = k'
    · simp [hk, h]
    · simp [hk]

theorem lookup_isSome (l : List (κ × ν)) (k : κ) : (PMap.lookup l k).isSome = true ↔ k ∈ l.map Prod.fst := by
  simp only [PMap.lookup, Option.isSome_map, List.find?_isSome, List.mem_map]
  constructor
  · rintro ⟨kv, h1, h2⟩; exact ⟨kv, h1, by simpa using h2⟩
  · rintro ⟨kv, h1, h2⟩; exact ⟨kv, h1, by simpa using h2⟩

omit [DecidableEq κ] in
theorem unique_key {l : List (κ × ν)} (hn : (l.map Prod.fst).Nodup) {k : κ} {v v' : ν}
    (h : (k, v) ∈ l) (h' : (k, v') ∈ l) : v = v' := by
  induction l with
  | nil => simp at h
  | cons kv l ih =>
    simp only [List.map_cons, List.nodup_cons] at hn
    rcases List.mem_cons.mp h with e | h1 <;> rcases List.mem_cons.mp h' with e' | h1'
    · rw [← e] at e'; exact (Prod.mk.inj e').2.symm
    · exact absurd (List.mem_map.mpr ⟨_, h1', by rw [← e]⟩) hn.1
    · exact absurd (List.mem_map.mpr ⟨_, h1, by rw [← e']⟩) hn.1
    · exact ih hn.2 h1 h1'

theorem countOf {hash : κ → Nat} {m : PMap κ ν} {l} (hr : PMap.Rep hash m l) :
    Spec.CountOf (PMap.lookup l) m.count := by
  obtain ⟨ps, hr⟩ := hr
  exact ⟨l.map Prod.fst, hr.keys, fun k => (lookup_isSome l k).symm, by simp [PMap.count, hr.size_eq]⟩

theorem run_rep (hash : κ → Nat) (h : List (MapOp κ ν)) (m : PMap κ ν) (l : List (κ × ν))
    (hr : PMap.Rep hash m l) :
    ∃ m' rs, m.run hash h = .ok (m', rs) ∧ SpecRun (PMap.lookup l) h rs ∧
      PMap.Rep hash m' (order l.reverse h).reverse := by
  induction h generalizing m l with
  | nil => exact ⟨m, [], rfl, rfl, by simpa [order] using hr⟩
  | cons op h ih =>
    cases op with
    | put k v =>
      obtain ⟨m1, e1, r1⟩ := PMap.put_rep hash hr k v
      obtain ⟨m2, rs, e2, s2, r2⟩ := ih m1 _ r1
      have hf : PMap.lookup ((k, v) :: PMap.without l k) = Spec.bind (PMap.lookup l) k v := by
        funext k'; simp [lookup_cons, Spec.bind]
      rw [hf] at s2
      refine ⟨m2, _, by simp [PMap.run, PMap.step, e1, e2], ⟨_, _, rfl, rfl, s2⟩, ?_⟩
      simpa [order, PMap.without] using r2
    | delete k =>
      obtain ⟨m1, e1, r1⟩ := PMap.delete_rep hash hr k
      obtain ⟨m2, rs, e2, s2, r2⟩ := ih m1 _ r1
      have hf : PMap.lookup (PMap.without l k) = Spec.unbind (PMap.lookup l) k := by
        funext k'; simp [lookup_without, Spec.unbind]
      rw [hf] at s2
      refine ⟨m2, _, by simp [PMap.run, PMap.step, e1, e2], ⟨_, _, rfl, rfl, s2⟩, ?_⟩
      simpa [order, PMap.without] using r2
    | get k =>
      obtain ⟨m2, rs, e2, s2, r2⟩ := ih m l hr
      exact ⟨m2, _, by simp [PMap.run, PMap.step, PMap.find_rep hash hr k, e2], ⟨_, _, rfl, rfl, s2⟩,
        by simpa [order] using r2⟩
    | count =>
      obtain ⟨m2, rs, e2, s2, r2⟩ := ih m l hr
      exact ⟨m2, _, by simp [PMap.run, PMap.step, e2], ⟨_, _, rfl, ⟨_, rfl, countOf hr⟩, s2⟩,
        by simpa [order] using r2⟩

/-! ### C11 -/

/-- C11: every history of map messages sent to a new map gets the answers of the mathematical partial
function, for every hash function; no cell is used after it was freed and no null pointer is followed. -/
theorem C11_map_refinement (hash : κ → Nat) (h : List (MapOp κ ν)) :
    ∃ m rs, (PMap.new : PMap κ ν).run hash h = .ok (m, rs) ∧ SpecRun (fun _ => none) h rs := by
  obtain ⟨m, rs, e, s, _⟩ := run_rep hash h PMap.new [] (PMap.rep_new hash)
  exact ⟨m, rs, e, s⟩

/-- The replies are determined: two reply lists that agree with the mathematical map are equal, so
`C11_map_refinement` pins the answers down. -/
theorem C11_answers_determined (f : κ → Option ν) (h : List (MapOp κ ν)) (rs rs' : List (MapReply ν))
    (h1 : SpecRun f h rs) (h2 : SpecRun f h rs') : rs = rs' := by
  induction h generalizing f rs rs' with
  | nil => rw [h1, h2]
  | cons op h ih =>
    obtain ⟨r, t, rfl, hr, ht⟩ := h1
    obtain ⟨r', t', rfl, hr', ht'⟩ := h2
    rw [ih _ _ _ ht ht']
    congr 1
    cases op with
    | put k v => rw [hr, hr']
    | delete k => rw [hr, hr']
    | get k => rw [hr, hr']
    | count =>
      obtain ⟨n, rfl, ks, hn, hk, rfl⟩ := hr
      obtain ⟨n', rfl, ks', hn', hk', rfl⟩ := hr'
      have : ks.Perm ks' := (List.perm_ext_iff_of_nodup hn hn').mpr (fun k => by rw [hk, hk'])
      rw [this.length_eq]

example : ((PMap.new : PMap Nat Nat).run (fun _ => 0)
    [.put 1 10, .put 2 20, .put 1 11, .get 1, .count, .delete 2, .get 2, .put 3 30, .delete 1, .get 3, .count]).bind
      (fun x => .ok x.2) =
    .ok [.self, .self, .self, .val (some 11), .num 2, .self, .val none, .self, .self, .val (some 30), .num 1] := by
  decide

/-! ### C12 -/

/-- C12: after every history, `entries` shows the keys and `values` the values of the same list of bindings
(most recently inserted first), `count` is its length, no key occurs twice, and the bindings are exactly
those of the mathematical map. -/
theorem C12_enumeration [HasNil κ] [HasNil ν] (hash : κ → Nat) (h : List (MapOp κ ν)) :
    ∃ m rs ks vs, (PMap.new : PMap κ ν).run hash h = .ok (m, rs) ∧
      m.keys = .ok ks ∧ m.values = .ok vs ∧
      Seq.Shows ks ((order [] h).reverse.map Prod.fst) ∧
      Seq.Shows vs ((order [] h).reverse.map Prod.snd) ∧
      m.count = (order [] h).length ∧
      ((order [] h).map Prod.fst).Nodup ∧
      ∀ k v, m.find hash k = .ok (some v) ↔ (k, v) ∈ order [] h := by
  obtain ⟨m, rs, e, s, r⟩ := run_rep hash h PMap.new [] (PMap.rep_new hash)
  simp only [List.reverse_nil] at r
  obtain ⟨ks, ek, rk⟩ := PMap.keys_rep hash r
  obtain ⟨vs, ev, rv⟩ := PMap.values_rep hash r
  have hnd : ((order ([] : List (κ × ν)) h).map Prod.fst).Nodup := by
    obtain ⟨ps, r⟩ := r
    have := r.keys
    rw [List.map_reverse] at this
    exact (List.reverse_perm _).nodup_iff.mp this
  refine ⟨m, rs, ks, vs, e, ek, ev, Seq.rep_shows rk, Seq.rep_shows rv, ?_, hnd, ?_⟩
  · obtain ⟨ps, r⟩ := r; simp [PMap.count, r.size_eq]
  · intro k v
    rw [PMap.find_rep hash r k]
    simp only [Out.ok.injEq, PMap.lookup, Option.map_eq_some_iff]
    constructor
    · rintro ⟨kv, h1, h2⟩
      have h3 := List.find?_some h1
      have h4 := List.mem_of_find?_eq_some h1
      simp at h3 h4
      rw [← h2, ← h3]; exact h4
    · intro hm
      cases hf : (order [] h).reverse.find? (fun kv => decide (kv.1 = k)) with
      | none =>
        have := List.find?_eq_none.mp hf (k, v) (by simpa using hm)
        simp at this
      | some kv =>
        refine ⟨kv, rfl, ?_⟩
        have h3 := List.find?_some hf
        have h4 := List.mem_of_find?_eq_some hf
        simp at h3 h4
        have : kv.2 = v := unique_key hnd (k := k) (by rw [← h3]; exact h4) hm
        simp [this]

/-- C12: after every history, `has:` answers whether some binding of the map has a value that is the same. -/
theorem C12_has (hash : κ → Nat) (h : List (MapOp κ ν)) :
    ∃ m rs, (PMap.new : PMap κ ν).run hash h = .ok (m, rs) ∧ ∀ same : ν → Bool, ∃ b, m.has same = .ok b ∧
      (b = true ↔ ∃ kv ∈ order [] h, same kv.2 = true) := by
  obtain ⟨m, rs, e, s, r⟩ := run_rep hash h PMap.new [] (PMap.rep_new hash)
  simp only [List.reverse_nil] at r
  refine ⟨m, rs, e, fun same => ⟨_, PMap.has_rep hash r same, ?_⟩⟩
  simp [List.any_eq_true]

example : (order [] [MapOp.put 1 10, .put 2 20, .delete 1] : List (Nat × Nat)) = [(2, 20)] := by decide

/-- Iteration over a list of bindings: the block sees each in order; break ends and is consumed, an error ends
and stays pending. -/
def specEach {σ : Type} (block : σ → κ → ν → σ × Flow) : σ → List (κ × ν) → σ × Flow
  | st, [] => (st, .none)
  | st, (k, v) :: l =>
    match block st k v with
    | (st', .none) => specEach block st' l
    | (st', .cont) => specEach block st' l
    | (st', .brk) => (st', .none)
    | (st', .err) => (st', .err)

omit [DecidableEq κ] in
theorem eachLoop_rep {σ : Type} {hash : κ → Nat} (c : PMap κ ν) (block : σ → κ → ν → σ × Flow)
    (ps : List Nat) (l : List (κ × ν)) (prev) (hs : PMap.Seg hash c.heap prev ps l none) (st : σ)
    {fuel : Nat} (hf : ps.length ≤ fuel) :
    PMap.eachLoop (fun st c k v => ((block st k v).1, c, (block st k v).2)) fuel st c (PMap.headOr ps none) =
      .ok (specEach block st l) := by
  induction ps generalizing prev l fuel st with
  | nil =>
    cases l with
    | nil => cases fuel <;> simp [PMap.headOr, PMap.eachLoop, specEach]
    | cons _ _ => simp [PMap.Seg] at hs
  | cons p ps ih =>
    cases l with
    | nil => simp [PMap.Seg] at hs
    | cons kv l =>
      obtain ⟨k, v⟩ := kv
      cases fuel with
      | zero => simp at hf
      | succ fuel =>
        simp only [PMap.Seg] at hs
        have ih' := fun st' => ih l _ hs.2 st' (fuel := fuel) (by simpa using hf)
        simp only [PMap.headOr_cons, PMap.eachLoop, PMap.deref, hs.1, Out.ok_bind, specEach]
        generalize block st k v = br
        obtain ⟨st', fl⟩ := br
        cases fl
        · exact ih' st'
        · rfl
        · exact ih' st'
        · rfl

/-- C12: `each:` presents every binding exactly once, in order of insertion, for every block that leaves its
third argument (an internal copy of the map) alone; the block may change the map itself. -/
theorem C12_each_partial {σ : Type} (hash : κ → Nat) (h : List (MapOp κ ν)) (block : σ → κ → ν → σ × Flow)
    (st : σ) :
    ∃ m rs, (PMap.new : PMap κ ν).run hash h = .ok (m, rs) ∧
      m.each hash (fun st c k v => ((block st k v).1, c, (block st k v).2)) st =
        .ok (specEach block st (order [] h)) := by
  obtain ⟨m, rs, e, s, r⟩ := run_rep hash h PMap.new [] (PMap.rep_new hash)
  simp only [List.reverse_nil] at r
  obtain ⟨c, ec, ⟨ps, rc⟩⟩ := PMap.copy_rep hash r
  rw [List.reverse_reverse] at rc
  refine ⟨m, rs, e, ?_⟩
  simp only [PMap.each, ec, Out.ok_bind, rc.head_eq]
  exact eachLoop_rep c block ps _ none rc.seg st rc.len_le

/-- C12 is violated for blocks that use their third argument: removing the current key from it frees the cell
the iteration is standing on, and the next step reads freed memory. -/
theorem C12_each_violated :
    ∃ (m : PMap Nat Nat) (rs : _) (block : Unit → PMap Nat Nat → Nat → Nat → Unit × PMap Nat Nat × Flow),
      (PMap.new : PMap Nat Nat).run id [.put 1 10] = .ok (m, rs) ∧
      (∀ c k v c', c.delete id k = .ok c' → (block () c k v).2.1 = c') ∧
      m.each id block () = .ub := by
  refine ⟨_, _, fun _ c k _ => ((), (match c.delete id k with | .ok c' => c' | _ => c), .none), rfl, ?_, rfl⟩
  intro c k v c' hd
  simp [hd]

example : ((PMap.new : PMap Nat Nat).run (fun k => k % 2) [.put 1 10, .put 2 20, .put 3 30, .put 1 11, .delete 2]).bind
    (fun x => x.1.each (fun k => k % 2) (fun (st : List (Nat × Nat)) c k v => (st ++ [(k, v)], c, .none)) []) =
    .ok ([(3, 30), (1, 11)], .none) := by decide

/-! ### C05 -/

/-- The pairs of (key, value) at equal positions, without those whose key is None. -/
def pairs {α : Type} [HasNil α] [DecidableEq α] (keys values : List α) : List (α × α) :=
  (keys.zip values).filter (fun p => p.1 ≠ HasNil.nil)

/-- Full statement of C05: `values by: keys` binds each key to the value at the same position. -/
def C05_full (α κ : Type) [HasNil α] [DecidableEq α] [DecidableEq κ] : Prop :=
  ∀ (hash : κ → Nat) (toKey : α → κ) (self arg : Seq α) (lv lk : List α),
    Seq.Reachable self → Seq.Shows self lv → Seq.Reachable arg → Seq.Shows arg lk →
    self.head < 2147483648 →
    ∃ m, PMap.combine hash self arg toKey = .ok m ∧
      ∀ k, m.find hash k = .ok (Spec.lastBinding ((pairs lk lv).map (fun p => (toKey p.1, p.2))) k)

theorem combineLoop_rep {α : Type} [HasNil α] [DecidableEq α] (hash : κ → Nat) (toKey : α → κ)
    (self arg : Seq α) (lv lk : List α) (pre : List α) (hv : self.Rep [] lv) (hk : arg.Rep pre lk)
    (hb : self.head < 2147483648) (n i : Nat) (hi : i + n = lv.length) (m : PMap κ α) (lm : List (κ × α))
    (hm : PMap.Rep hash m lm) :
    ∃ m' lm', PMap.combineLoop hash self arg toKey m i n = .ok m' ∧ PMap.Rep hash m' lm' ∧
      ∀ k, PMap.lookup lm' k = ((((pairs (lk.drop i) (lv.drop i)).map (fun p => (toKey p.1, p.2))).reverse.find?
        (fun p => p.1 = k)).map Prod.snd).or (PMap.lookup lm k) := by
  induction n generalizing i m lm with
  | zero =>
    refine ⟨m, lm, rfl, hm, fun k => ?_⟩
    rw [List.drop_of_length_le (l := lv) (by omega)]
    simp [pairs]
  | succ n ih =>
    have hh := hv.head_eq
    simp only [List.length_nil, Nat.zero_add] at hh
    have hin : InInt ((i : Int) + 1) ∧ InInt ((i : Int) + 1 - 1) := by unfold InInt; omega
    have ev := Seq.get_rep hv ((i : Int) + 1) hin
    have ek := Seq.get_rep hk ((i : Int) + 1) hin
    have hpos : ∀ l : List α, Spec.position l ((i : Int) + 1) = l[i]? := by
      intro l; simp only [Spec.position]; rw [if_pos (by omega), show ((i : Int) + 1 - 1).toNat = i by omega]
    rw [hpos] at ev ek
    have hlt : i < lv.length := by omega
    rw [List.getElem?_eq_getElem hlt] at ev
    simp only [PMap.combineLoop, ev, ek, Out.ok_bind, Option.getD_some]
    by_cases hnil : (lk[i]?).getD HasNil.nil = HasNil.nil
    · rw [if_pos hnil]
      obtain ⟨m', lm', e, r, hl⟩ := ih (i + 1) (by omega) m lm hm
      refine ⟨m', lm', by simpa using e, r, fun k => ?_⟩
      suffices hpe : pairs (lk.drop i) (lv.drop i) = pairs (lk.drop (i + 1)) (lv.drop (i + 1)) by
        rw [hl k, hpe]
      by_cases hik : i < lk.length
      · rw [List.drop_eq_getElem_cons hlt, List.drop_eq_getElem_cons hik]
        rw [List.getElem?_eq_getElem hik] at hnil
        simp only [Option.getD_some] at hnil
        simp only [pairs, List.zip_cons_cons, List.filter_cons, hnil, ne_eq, not_true_eq_false, decide_false]
        rfl
      · rw [List.drop_of_length_le (l := lk) (by omega), List.drop_of_length_le (l := lk) (by omega)]
        simp [pairs]
    · rw [if_neg hnil]
      have hik : i < lk.length := by
        rcases Nat.lt_or_ge i lk.length with h | h
        · exact h
        · rw [List.getElem?_eq_none h] at hnil; simp at hnil
      rw [List.getElem?_eq_getElem hik] at hnil ⊢
      simp only [Option.getD_some] at hnil ⊢
      obtain ⟨m1, e1, r1⟩ := PMap.put_rep hash hm (toKey lk[i]) lv[i]
      obtain ⟨m', lm', e, r, hl⟩ := ih (i + 1) (by omega) m1 _ r1
      refine ⟨m', lm', by simp only [e1, Out.ok_bind]; exact e, r, fun k => ?_⟩
      rw [hl k, lookup_cons, List.drop_eq_getElem_cons hlt, List.drop_eq_getElem_cons hik]
      simp only [pairs, List.zip_cons_cons, List.filter_cons, ne_eq, hnil, not_false_eq_true, decide_true,
        if_true, List.map_cons, List.reverse_cons, List.find?_append]
      by_cases hkk : k = toKey lk[i]
      · subst hkk
        generalize List.find? _ _ = o
        cases o <;> simp
      · have hkk' : ¬ toKey lk[i] = k := fun e => hkk e.symm
        generalize List.find? _ _ = o
        cases o <;> simp [hkk, hkk']

/-- C05, partial: when nothing is currently shifted off the receiver (the argument may be in any reachable
state), `values by: keys` binds exactly the keys to the values at the same positions, the last one winning.
Missing: receivers with shifted-off elements, for which the code pairs the wrong positions. -/
theorem C05_by_partial {α : Type} [HasNil α] [DecidableEq α] (hash : κ → Nat) (toKey : α → κ)
    (self arg : Seq α) (lv lk : List α) (hs : Seq.Reachable self) (hv : Seq.Shows self lv)
    (ha : Seq.Reachable arg) (hk : Seq.Shows arg lk) (hb : self.head < 2147483648) (ht : self.tail = 0) :
    ∃ m, PMap.combine hash self arg toKey = .ok m ∧
      ∀ k, m.find hash k = .ok (Spec.lastBinding ((pairs lk lv).map (fun p => (toKey p.1, p.2))) k) := by
  obtain ⟨pv, rv⟩ := Seq.rep_of_shows hs hv
  obtain ⟨pk, rk⟩ := Seq.rep_of_shows ha hk
  have hp : pv = [] := List.length_eq_zero_iff.mp (by rw [← rv.tail_eq, ht])
  subst hp
  have hh := rv.head_eq
  simp only [List.length_nil, Nat.zero_add] at hh
  obtain ⟨m, lm, e, r, hl⟩ := combineLoop_rep hash toKey self arg lv lk pk rv rk hb lv.length 0 (by omega)
    PMap.new [] (PMap.rep_new hash)
  refine ⟨m, by rw [PMap.combine, ht, hh]; exact e, fun k => ?_⟩
  rw [PMap.find_rep hash r k, hl k]
  simp [Spec.lastBinding, PMap.lookup]

/-- C05 is violated by the code when an element was shifted off the receiver. -/
theorem C05_violated : ¬ C05_full (Option Nat) (Option Nat) := by
  intro hf
  obtain ⟨m, e, h⟩ := hf (fun _ => 0) id Seq.witness Seq.witness _ _ Seq.witness_reachable Seq.witness_shows
    Seq.witness_reachable Seq.witness_shows (by decide)
  have h2 := h (some 2)
  have e2 : (PMap.combine (fun _ => 0) Seq.witness Seq.witness id).bind (fun m => m.find (fun _ => 0) (some 2)) =
      .ok (none : Option (Option Nat)) := by decide
  rw [e] at e2
  have e3 : m.find (fun _ => 0) (some 2) = .ok none := e2
  rw [e3] at h2
  revert h2
  decide

example : ∃ s : Seq (Option Nat), Seq.Reachable s ∧ s.tail = 0 ∧ Seq.Shows s [some 4, some 5] :=
  ⟨⟨3, 2, 0, [some (some 4), some (some 5), none]⟩,
    ⟨[.append (some 4), .append (some 5)], _, by simp [Seq.InRange], rfl⟩,
    rfl, Seq.rep_shows (pre := []) ⟨rfl, rfl, rfl, _, rfl, by simp⟩⟩

end Verif.Props.Map
