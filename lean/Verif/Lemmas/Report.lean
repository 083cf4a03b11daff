import Verif.Model.Report
import Verif.Lemmas.GC
import Verif.Lemmas.FloatText

/-! Lemmas about the counters of the sweeper and the threshold. -/

namespace Verif.Model.Report

open Verif.Model.GC Verif.Model.Float

/-- Whether an object is permanent. -/
def stickyAt (mem : Nat → Option Obj) (x : Nat) : Bool :=
  match mem x with
  | some o => o.sticky
  | none => false

theorem keepAt_congr {all : Bool} {m m' : Nat → Option Obj} {x : Nat}
    (h : ∀ o, m x = some o → ∃ g, m' x = some { o with gnext := g }) (hn : m x = none → m' x = none) :
    keepAt all m' x = keepAt all m x ∧ stickyAt m' x = stickyAt m x := by
  unfold keepAt stickyAt
  cases e : m x with
  | none => rw [hn e]; exact ⟨rfl, rfl⟩
  | some o =>
    obtain ⟨g, e'⟩ := h o e
    rw [e']
    exact ⟨rfl, rfl⟩

/-- The counters of the loop, given that the loop itself ends. -/
theorem sweepCount_ok (all : Bool) : ∀ {l : List Nat} {fuel : Nat} {h h' : Heap} {prev cur : Option Nat} {n : Counts},
    Chain h.mem cur l → l.Nodup → (∀ p, prev = some p → p ∉ l) → n.objects + l.length ≤ 2147483647 →
    sweepLoop all fuel h prev cur = .ok h' →
    sweepCount all fuel h prev cur n = .ok (h',
      ⟨n.objects + l.length, n.dust + (l.filter (fun x => !keepAt all h.mem x)).length,
        n.kept + (l.filter (keepAt all h.mem)).length,
        n.sticky + (l.filter (fun x => keepAt all h.mem x && stickyAt h.mem x)).length⟩)
  | [], fuel, h, h', prev, cur, n, hc, hnd, hp, hlen, he => by
    simp only [Chain] at hc
    subst hc
    cases fuel <;> (simp only [sweepLoop] at he; cases he; rfl)
  | x :: l, 0, h, h', prev, cur, n, hc, hnd, hp, hlen, he => by
    obtain ⟨rfl, _⟩ := hc
    cases he
  | x :: l, fuel + 1, h, h', prev, cur, n, hc, hnd, hp, hlen, he => by
    obtain ⟨rfl, o, eo, hc⟩ := hc
    rw [List.nodup_cons] at hnd
    simp only [List.length_cons] at hlen
    have hcong : ∀ {m' : Nat → Option Obj},
        (∀ y ∈ l, keepAt all m' y = keepAt all h.mem y ∧ stickyAt m' y = stickyAt h.mem y) →
        l.filter (fun x => !keepAt all m' x) = l.filter (fun x => !keepAt all h.mem x) ∧
        l.filter (keepAt all m') = l.filter (keepAt all h.mem) ∧
        l.filter (fun x => keepAt all m' x && stickyAt m' x) = l.filter (fun x => keepAt all h.mem x && stickyAt h.mem x) := by
      intro m' hm
      refine ⟨?_, ?_, ?_⟩
      · exact List.filter_congr fun y hy => by rw [(hm y hy).1]
      · exact List.filter_congr fun y hy => by rw [(hm y hy).1]
      · exact List.filter_congr fun y hy => by rw [(hm y hy).1, (hm y hy).2]
    simp only [sweepLoop, eo] at he
    simp only [sweepCount, eo]
    rw [if_neg (by omega)]
    have hka : keepAt all h.mem x = keep all o := by simp only [keepAt, eo]
    have hsa : stickyAt h.mem x = o.sticky := by simp only [stickyAt, eo]
    by_cases hd : (o.mark = false ∧ o.sticky = false) ∨ all = true
    · rw [if_pos hd] at he ⊢
      have hk : keep all o = false := by
        unfold keep
        rcases hd with ⟨h1, h2⟩ | h1
        · rw [h1, h2]; rfl
        · rw [h1]; simp
      rw [Out.bind_eq_ok] at he
      obtain ⟨h1, e1, he⟩ := he
      rw [e1, Out.ok_bind]
      have hmem : ∀ y ∈ l, ∀ m, h.mem y = m → upd h1.mem x none y = m := by
        intro y hy m em
        have hyx : y ≠ x := fun e => hnd.1 (e ▸ hy)
        simp only [upd, if_neg hyx]
        unfold unlink at e1
        cases prev with
        | none => cases e1; exact em
        | some p =>
          cases ep : h.mem p with
          | none => simp only [ep] at e1; cases e1
          | some q =>
            simp only [ep] at e1
            cases e1
            have hyp : y ≠ p := fun e => hp p rfl (e ▸ List.mem_cons_of_mem _ hy)
            simp only [upd, if_neg hyp]
            exact em
      have hC : Chain (upd h1.mem x none) o.gnext l := by
        refine chain_congr ?_ hc
        intro y hy p ep
        exact ⟨p, hmem y hy _ ep, rfl⟩
      have ih := sweepCount_ok all (n := { n with objects := n.objects + 1, dust := n.dust + 1 })
        (h := { h1 with mem := upd h1.mem x none }) hC hnd.2
        (fun p e => fun hm => hp p e (List.mem_cons_of_mem _ hm)) (by dsimp only; omega) he
      rw [ih]
      have := hcong (m' := upd h1.mem x none) (by
        intro y hy
        unfold keepAt stickyAt
        rw [hmem y hy _ rfl]
        exact ⟨rfl, rfl⟩)
      dsimp only
      rw [this.1, this.2.1, this.2.2]
      simp only [List.filter_cons, hka, hk, List.length_cons, Bool.not_false, if_true, Bool.false_and, Bool.false_eq_true,
        if_false]
      congr 3 <;> omega
    · rw [if_neg hd] at he ⊢
      have hk : keep all o = true := by
        unfold keep
        cases hm : o.mark <;> cases hs : o.sticky <;> cases all <;> simp_all
      have hmem : ∀ y ∈ l, ∀ m, h.mem y = m → upd h.mem x (some { o with mark := false }) y = m := by
        intro y hy m em
        have hyx : y ≠ x := fun e => hnd.1 (e ▸ hy)
        simp only [upd, if_neg hyx]
        exact em
      have hC : Chain (upd h.mem x (some { o with mark := false })) o.gnext l := by
        refine chain_congr ?_ hc
        intro y hy p ep
        exact ⟨p, hmem y hy _ ep, rfl⟩
      have ih := sweepCount_ok all
        (n := ⟨n.objects + 1, n.dust, n.kept + 1, if o.sticky = true then n.sticky + 1 else n.sticky⟩)
        (h := { h with mem := upd h.mem x (some { o with mark := false }) }) hC hnd.2
        (fun p e => by cases e; exact hnd.1) (by dsimp only; omega) he
      rw [ih]
      have := hcong (m' := upd h.mem x (some { o with mark := false })) (by
        intro y hy
        unfold keepAt stickyAt
        rw [hmem y hy _ rfl]
        exact ⟨rfl, rfl⟩)
      dsimp only
      rw [this.1, this.2.1, this.2.2]
      simp only [List.filter_cons, hka, hk, hsa, List.length_cons, Bool.not_true, if_true, Bool.true_and, Bool.false_eq_true,
        if_false]
      cases o.sticky
      · simp only [Bool.false_eq_true, if_false]
        congr 3 <;> omega
      · simp only [if_true, List.length_cons]
        congr 3 <;> omega

/-- A collection with its counters. -/
theorem collectCount_ok {h : Heap} {l ctx : List Nat} {R plain : Nat → Prop} (hw : Wf h l)
    (hc : Closed h R plain) (hctx : ∀ c ∈ ctx, R c) (hlen : l.length ≤ 2147483647) :
    ∃ h' n, collectCount h ctx = .ok (h', n) ∧ collect h ctx = .ok h' ∧
      n.objects = l.length ∧ n.kept = (l.filter (fun x => (h'.mem x).isSome)).length ∧
      n.dust = (l.filter (fun x => !(h'.mem x).isSome)).length ∧ n.sticky = (l.filter (stickyAt h.mem)).length := by
  obtain ⟨h1, e1, p1, m1⟩ := markRoots_ok hc hctx
  have hw1 := hw.le p1.le
  obtain ⟨h', e2, w2, o2, n2⟩ := sweep_ok false hw1
  have := sweepCount_ok false (n := ⟨0, 0, 0, 0⟩) hw1.chain hw1.nodup (prev := none) (fun p e => nomatch e)
    (by dsimp only; omega) e2
  have hk : ∀ x ∈ l, (h'.mem x).isSome = keepAt false h1.mem x := by
    intro x hx
    have := (w2.all x)
    rw [List.mem_filter] at this
    cases hk : keepAt false h1.mem x with
    | true => exact this.2 ⟨hx, hk⟩
    | false =>
      cases hs : (h'.mem x).isSome with
      | false => rfl
      | true => rw [(this.1 hs).2] at hk; cases hk
  refine ⟨h', _, by simp only [collectCount, e1, Out.ok_bind]; exact this, by simp only [collect, e1, Out.ok_bind, e2], ?_, ?_, ?_, ?_⟩
  · exact Nat.zero_add _
  · dsimp only
    rw [Nat.zero_add, List.filter_congr hk]
  · dsimp only
    rw [Nat.zero_add]
    congr 1
    exact List.filter_congr (fun x hx => by rw [hk x hx])
  · dsimp only
    rw [Nat.zero_add]
    congr 1
    apply List.filter_congr
    intro x hx
    unfold keepAt stickyAt
    cases e : h.mem x with
    | none => rw [p1.le.no x e]; rfl
    | some o =>
      obtain ⟨m, em, _⟩ := p1.le.obj x o e
      rw [em]
      dsimp only [keep]
      cases o.sticky <;> cases m <;> rfl

/-! ## The threshold -/

theorem rnd_nat {n : Nat} (h : n < 2 ^ 53) : ∃ k, rnd false n 1 = .fin false (n * 2 ^ k) k := by
  unfold rnd
  by_cases h0 : n = 0
  · subst h0; exact ⟨0, rfl⟩
  · rw [if_neg h0, if_pos (by omega)]
    refine ⟨bits n 1, ?_⟩
    have := halfEven_exact (n * 2 ^ bits n 1) (d := 1) (by omega)
    rw [Nat.mul_one] at this
    rw [this]

theorem bits_two {a d : Nat} (hd : 0 < d) (h : a < d * 2 ^ 50) : 2 ≤ bits a d := by
  unfold bits
  split
  · have h1 : a / d < 2 ^ 50 := (Nat.div_lt_iff_lt_mul hd).2 (by rw [Nat.mul_comm]; exact h)
    have h2 : a / d ≠ 0 := by
      have := Nat.div_pos (by assumption) hd
      omega
    have := (Nat.log2_lt h2).2 h1
    omega
  · omega

theorem eight_tenths : rnd false 8 10 = .fin false 7205759403792794 53 := by decide +kernel

/-- Although the product is rounded, the comparison is exact below 2^50 bytes. -/
theorem gt_threshold {used limit : Nat} (hu : used < 2 ^ 53) (hl : limit < 2 ^ 50) :
    Num.Dbl.gt (rnd false used 1).dbl (threshold limit).dbl = decide (4 * limit < 5 * used) := by
  obtain ⟨j, ej⟩ := rnd_nat hu
  obtain ⟨k, ek⟩ := rnd_nat (n := limit) (by omega)
  have hj : 0 < 2 ^ j := Nat.pow_pos (by omega)
  have hk : 0 < 2 ^ k := Nat.pow_pos (by omega)
  have key : ∀ H b : Nat, (used * 2 ^ b > H ↔ 4 * limit < 5 * used) →
      Num.Dbl.gt (F.fin false (used * 2 ^ j) j).dbl (F.fin false H b).dbl = decide (4 * limit < 5 * used) := by
    intro H b h
    simp only [F.dbl, Num.Dbl.gt, Bool.false_eq_true, if_false]
    rw [decide_eq_decide, ← h]
    rw [show ((used * 2 ^ j : Nat) : Int) * 2 ^ b = ((used * 2 ^ j * 2 ^ b : Nat) : Int) by push_cast; rfl,
      show ((H : Nat) : Int) * 2 ^ j = ((H * 2 ^ j : Nat) : Int) by push_cast; rfl, gt_iff_lt, Int.ofNat_lt,
      Nat.mul_right_comm, Nat.mul_lt_mul_right hj]
  rw [ej, threshold, ek, eight_tenths]
  simp only [mul, bne_self_eq_false]
  unfold rnd
  by_cases h0 : limit = 0
  · subst h0
    rw [if_pos (by simp)]
    apply key
    simp only [Nat.pow_zero]
    omega
  · have hpos : 0 < limit * 2 ^ k := Nat.mul_pos (by omega) hk
    have hP : limit * 2 ^ k < 2 ^ 50 * 2 ^ k := Nat.mul_lt_mul_of_pos_right hl hk
    have hd : 2 ^ (k + 53) = 2 ^ k * 2 ^ 53 := Nat.pow_add _ _ _
    rw [if_neg (by omega), if_pos (by omega)]
    apply key
    have hb := bits_two (a := limit * 2 ^ k * 7205759403792794) (d := 2 ^ (k + 53)) (by omega) (by omega)
    generalize bits (limit * 2 ^ k * 7205759403792794) (2 ^ (k + 53)) = b at hb ⊢
    have hB : 4 ≤ 2 ^ b := Nat.pow_le_pow_right (n := 2) (by omega) hb
    generalize 2 ^ b = B at hB ⊢
    have hY : limit * B < 2 ^ 50 * B := Nat.mul_lt_mul_of_pos_right hl (by omega)
    have hs : halfEven (limit * 2 ^ k * 7205759403792794 * B) (2 ^ (k + 53)) =
        halfEven (limit * B * 7205759403792794) (2 ^ 53) := by
      rw [hd, show limit * 2 ^ k * 7205759403792794 * B = limit * B * 7205759403792794 * 2 ^ k by
        generalize 2 ^ k = P
        rw [Nat.mul_right_comm _ _ B, Nat.mul_right_comm limit P B, Nat.mul_right_comm], Nat.mul_comm (2 ^ k), halfEven_scale _ _ hk]
    rw [hs]
    constructor
    · intro h
      rcases Nat.lt_or_ge (4 * limit) (5 * used) with h1 | h1
      · exact h1
      · have h2 : 5 * (used * B) ≤ 4 * (limit * B) := by
          have := Nat.mul_le_mul_right B h1
          rwa [Nat.mul_assoc, Nat.mul_assoc] at this
        have := halfEven_ge (a := limit * B * 7205759403792794) (d := 2 ^ 53) (n := used * B) (by omega) (by omega)
        omega
    · intro h
      have h2 : 4 * (limit * B) + B ≤ 5 * (used * B) := by
        have := Nat.mul_le_mul_right B (show 4 * limit + 1 ≤ 5 * used from h)
        rwa [Nat.add_mul, Nat.one_mul, Nat.mul_assoc, Nat.mul_assoc] at this
      have := halfEven_le (a := limit * B * 7205759403792794) (d := 2 ^ 53) (n := used * B - 1) (by omega) (by omega)
      omega

end Verif.Model.Report
