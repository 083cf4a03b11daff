import Verif.Lemmas.TempTidy

/-! Helper lemmas about intermediate values: what is released again. -/

namespace Verif.Model.Temp

open Verif.Model.GC
open Verif.Spec.GC (Reach)
open Verif.Spec.Temp

/-- Same pins in the scopes `D`. -/
structure Quiet (D : List Nat) (a b : St) : Prop where
  msg : b.inMsg = a.inMsg
  pins : ∀ d ∈ D, Temp.pins b d = Temp.pins a d

theorem Quiet.refl (D : List Nat) (a : St) : Quiet D a a := ⟨rfl, fun _ _ => rfl⟩

theorem Quiet.trans {D : List Nat} {a b c : St} (h : Quiet D a b) (h' : Quiet D b c) : Quiet D a c :=
  ⟨h'.msg.trans h.msg, fun d hd => (h'.pins d hd).trans (h.pins d hd)⟩

theorem Quiet.sub {D D' : List Nat} {a b : St} (h : Quiet D a b) (hs : ∀ d ∈ D', d ∈ D) : Quiet D' a b := ⟨h.msg, fun d hd => h.pins d (hs d hd)⟩

theorem quiet_make {t : St} (h : Ok t) (k : Kind) (a st : Bool) : Quiet t.ctxs t (make t k a st).1 :=
  ⟨rfl, fun _ hd => pins_make h k a st (h.ctx_lt hd)⟩

theorem msg_change {t t' : St} {x : Nat} {f : Obj → Obj} (e : change t x f = .ok t') : t'.inMsg = t.inMsg := by
  obtain ⟨_, _, rfl⟩ := change_ok e
  rfl

/-- Changes that leave nameless properties alone. -/
theorem quiet_change {t t' : St} {x : Nat} {f : Obj → Obj} (e : change t x f = .ok t') {D : List Nat}
    (hp : ∀ o, x ∈ D → (f o).props.filter (isNamed t.kind 0) = o.props.filter (isNamed t.kind 0)) : Quiet D t t' := by
  refine ⟨msg_change e, fun d hd => ?_⟩
  by_cases hdx : d = x
  · subst hdx
    obtain ⟨o, eo, _⟩ := change_ok e
    rw [pins_change_same eo e, pins_eq eo, hp o hd]
  · exact pins_change_ne e hdx

theorem quiet_del {t t' : St} {m : Bool} {x n : Nat} {D : List Nat} (e : delProp t m x n = .ok t') (hn : x ∈ D → n ≠ 0) : Quiet D t t' := by
  refine quiet_change e fun o hx => ?_
  unfold dropNamed
  split
  · rfl
  · refine filter_eraseP_of_disjoint ?_ _
    intro a ha
    simp only [isNamed, beq_iff_eq] at ha
    have := hn hx
    rw [isNamed, ha]
    simpa using this

theorem quiet_add {t t' : St} (h : Ok t) {m : Bool} {x n v : Nat} {D : List Nat} (hD : ∀ d ∈ D, d ∈ t.ctxs)
    (e : addProp t m x n v = .ok t') (hn : x ∈ D → n ≠ 0) : Quiet D t t' := by
  refine ((quiet_make h (.name n) false false).sub hD).trans (quiet_change (addProp_ok e) fun o hx => ?_)
  unfold addItem
  split
  · rfl
  · refine List.filter_cons_of_neg ?_
    have := hn hx
    simp only [isNamed, make, if_true, beq_iff_eq, Kind.name.injEq]
    exact this

theorem quiet_setProp {t t' : St} (h : Ok t) {m : Bool} {x n v : Nat} {D : List Nat} (hD : ∀ d ∈ D, d ∈ t.ctxs)
    (hx : ∃ p, t.heap.mem x = some p) (hxn : ∀ n, t.kind x ≠ .name n) (e : setProp t m x n v = .ok t') (hn : x ∈ D → n ≠ 0) :
    Quiet D t t' := by
  unfold setProp at e
  obtain ⟨a, e1, e2⟩ := of_bind e
  have k := (safe_del h hx hxn).of_ok e1
  exact (quiet_del e1 hn).trans (quiet_add k.ok (fun d hd => by rw [k.ctxs]; exact hD d hd) e2 hn)

theorem quiet_pin {t t' : St} (h : Ok t) {c v : Nat} {rest : List Nat} (hc : t.ctxs = c :: rest) (e : pin t v = .ok t') :
    Quiet rest t t' ∧ pins t' c = v :: pins t c := by
  refine ⟨?_, pins_pin h hc e⟩
  unfold pin at e
  rw [hc] at e
  have hnd := h.nodup
  rw [hc] at hnd
  refine quiet_add h (fun d hd => by rw [hc]; exact List.mem_cons_of_mem _ hd) e fun hx => ?_
  exact absurd hx (List.nodup_cons.1 hnd).1

theorem quiet_unpin {c : Nat} {rest : List Nat} : ∀ {k : Nat} {t t' : St}, Ok t → t.ctxs = c :: rest → unpin t k = .ok t' →
    Quiet rest t t' ∧ pins t' c = (pins t c).drop k
  | 0, t, t', _, _, e => by cases e; exact ⟨Quiet.refl _ _, rfl⟩
  | k + 1, t, t', h, hc, e => by
    unfold unpin at e
    rw [hc] at e
    obtain ⟨a, e1, e2⟩ := of_bind e
    have hm : c ∈ t.ctxs := by rw [hc]; exact List.mem_cons_self
    have k1 := (safe_del (n := 0) h (h.ctx c hm).2 (h.ctx_kind hm)).of_ok e1
    have hnd := h.nodup
    rw [hc] at hnd
    have q1 : Quiet rest t a := quiet_del e1 fun hx => absurd hx (List.nodup_cons.1 hnd).1
    obtain ⟨q2, p2⟩ := quiet_unpin k1.ok (by rw [k1.ctxs, hc]) e2
    refine ⟨q1.trans q2, ?_⟩
    obtain ⟨o, eo, _⟩ := change_ok e1
    have e1' : change t c (dropNamed t.kind false 0) = .ok a := e1
    have p1 := pins_change_same eo e1'
    simp only [dropNamed, Bool.false_eq_true, if_false] at p1
    rw [filter_eraseP_same, List.map_drop, ← pins_eq eo] at p1
    rw [p2, p1, List.drop_drop, Nat.add_comm]

theorem quiet_setLocal {t t' : St} (h : Ok t) {n v : Nat} (e : setLocal t n v = .ok t') : Quiet t.ctxs t t' := by
  unfold setLocal at e
  cases hc : t.ctxs with
  | nil => rw [hc] at e; cases e
  | cons c rest =>
    rw [hc] at e
    have hm : c ∈ t.ctxs := by rw [hc]; exact List.mem_cons_self
    rw [← hc]
    exact quiet_setProp h (fun _ h => h) (h.ctx c hm).2 (h.ctx_kind hm) e (fun _ => Nat.succ_ne_zero _)

theorem quiet_setVar {t t' : St} (h : Ok t) {n v : Nat} (e : setVar t n v = .ok t') : Quiet t.ctxs t t' := by
  unfold setVar at e
  obtain ⟨r, e1, e2⟩ := of_bind e
  cases r with
  | none => cases e2; exact Quiet.refl _ _
  | some c =>
    have hm := (safe_ownerIn h (fun _ h => h)).of_ok e1 c rfl
    exact quiet_setProp h (fun _ h => h) (h.ctx c hm).2 (h.ctx_kind hm) e2 (fun _ => Nat.succ_ne_zero _)

theorem quiet_setOwn {t t' : St} (h : Ok t) {n v : Nat} (e : setOwn t n v = .ok t') : Quiet t.ctxs t t' := by
  unfold setOwn at e
  obtain ⟨r, e1, e2⟩ := of_bind e
  cases r with
  | none => cases e2; exact Quiet.refl _ _
  | some m =>
    have hm := ((safe_find h).of_ok e1).1 m rfl
    exact quiet_setProp h (fun _ h => h) hm.2 hm.not_name e2 (fun _ => Nat.succ_ne_zero _)

theorem quiet_sticky {t t' : St} {x : Nat} {b : Bool} (e : change t x (fun o => { o with sticky := b }) = .ok t') (D : List Nat) : Quiet D t t' :=
  quiet_change e fun _ _ => rfl

theorem quiet_hold {t t' : St} {r : Nat} {old : Bool} (e : hold t r = .ok (t', old)) (D : List Nat) : Quiet D t t' := by
  unfold hold at e
  obtain ⟨o, _, e⟩ := of_bind e
  obtain ⟨a, e1, e2⟩ := of_bind e
  cases e2
  exact quiet_sticky e1 D

/-- No step without calls changes pins, but `pin`. -/
theorem quiet_basic {t t' : St} (h : Ok t) {c : Nat} {rest regs regs' : List Nat} (hc : t.ctxs = c :: rest) (hr : Vals t regs) {b : Basic}
    (e : basic t regs b = .ok (t', regs')) : Quiet rest t t' ∧ ((∀ i, b ≠ .pin i) → Quiet t.ctxs t t') := by
  have hsub : ∀ d ∈ rest, d ∈ t.ctxs := fun d hd => by rw [hc]; exact List.mem_cons_of_mem _ hd
  have hv : ∀ {i x}, regs[i]? = some x → x ∈ t.ctxs → False := fun ei hx => value_not_ctx h (hr.at ei).1 hx
  suffices hs : (∀ i, b ≠ .pin i) → Quiet t.ctxs t t' by
    refine ⟨?_, hs⟩
    cases b with
    | pin i =>
      simp only [basic] at e
      obtain ⟨x, _, e⟩ := of_bind e
      obtain ⟨a, e1, e2⟩ := of_bind e
      cases e2
      exact (quiet_pin h hc e1).1
    | new a => exact (hs (fun _ h => nomatch h)).sub hsub
    | elem i j => exact (hs (fun _ h => nomatch h)).sub hsub
    | get m i n => exact (hs (fun _ h => nomatch h)).sub hsub
    | put m i n v => exact (hs (fun _ h => nomatch h)).sub hsub
    | del m i n => exact (hs (fun _ h => nomatch h)).sub hsub
    | push i v => exact (hs (fun _ h => nomatch h)).sub hsub
    | pop i => exact (hs (fun _ h => nomatch h)).sub hsub
    | shift i => exact (hs (fun _ h => nomatch h)).sub hsub
  intro hp
  cases b with
  | pin i => exact absurd rfl (hp i)
  | new a => cases e; exact quiet_make h _ _ _
  | elem i j =>
    simp only [basic] at e
    obtain ⟨_, _, e⟩ := of_bind e; obtain ⟨_, _, e⟩ := of_bind e; obtain ⟨_, _, e⟩ := of_bind e; cases e; exact Quiet.refl _ _
  | get m i n =>
    simp only [basic] at e
    obtain ⟨_, _, e⟩ := of_bind e; obtain ⟨_, _, e⟩ := of_bind e; obtain ⟨_, _, e⟩ := of_bind e; cases e; exact Quiet.refl _ _
  | put m i n v =>
    simp only [basic] at e
    obtain ⟨x, ex, e⟩ := of_bind e; obtain ⟨w, _, e⟩ := of_bind e; obtain ⟨a, e1, e2⟩ := of_bind e; cases e2
    have ex := var_ok.1 ex
    exact quiet_setProp h (fun _ h => h) (hr.at ex).2 (hr.at ex).not_name e1 (fun hx => (hv ex hx).elim)
  | del m i n =>
    simp only [basic] at e
    obtain ⟨x, ex, e⟩ := of_bind e; obtain ⟨a, e1, e2⟩ := of_bind e; cases e2
    exact quiet_del e1 (fun hx => (hv (var_ok.1 ex) hx).elim)
  | push i v =>
    simp only [basic] at e
    obtain ⟨x, ex, e⟩ := of_bind e; obtain ⟨_, _, e⟩ := of_bind e; obtain ⟨_, _, e⟩ := of_bind e; obtain ⟨a, e1, e2⟩ := of_bind e; cases e2
    exact quiet_change e1 fun o hx => (hv (var_ok.1 ex) hx).elim
  | pop i =>
    simp only [basic] at e
    obtain ⟨x, ex, e⟩ := of_bind e; obtain ⟨_, _, e⟩ := of_bind e; obtain ⟨a, e1, e2⟩ := of_bind e; cases e2
    exact quiet_change e1 fun o hx => (hv (var_ok.1 ex) hx).elim
  | shift i =>
    simp only [basic] at e
    obtain ⟨x, ex, e⟩ := of_bind e; obtain ⟨_, _, e⟩ := of_bind e; obtain ⟨a, e1, e2⟩ := of_bind e; cases e2
    exact quiet_change e1 fun o hx => (hv (var_ok.1 ex) hx).elim

theorem quiet_bindParams {c : Nat} {rest regs : List Nat} : ∀ {ps : List (Nat × Nat)} {t t' : St}, Ok t → t.ctxs = c :: rest → Vals t regs →
    bindParams regs t ps = .ok t' → Quiet t.ctxs t t'
  | [], t, t', _, _, _, e => by cases e; exact Quiet.refl _ _
  | (n, i) :: ps, t, t', h, hc, hr, e => by
    unfold bindParams at e
    obtain ⟨v, ev, e⟩ := of_bind e
    obtain ⟨a, e1, e2⟩ := of_bind e
    have k := (safe_setLocal h hc (hr.at (var_ok.1 ev)) true).of_ok e1
    have q := quiet_bindParams k.ok (by rw [k.ctxs, hc]) (hr.keep k) e2
    rw [k.ctxs] at q
    exact (quiet_setLocal h e1).trans q

theorem quiet_bindSelf {t t' : St} (h : Ok t) {c b : Nat} {rest : List Nat} {my : Option Nat} (hc : t.ctxs = c :: rest)
    (hm : ∀ m, my = some m → Val t m) (e : bindSelf t b my = .ok t') : Quiet t.ctxs t t' := by
  unfold bindSelf at e
  cases my with
  | none =>
    rw [bind_ok] at e
    exact quiet_setLocal h e
  | some m =>
    obtain ⟨a, e1, e2⟩ := of_bind e
    have k := (safe_setLocal h hc (hm m rfl) true).of_ok e1
    have q := quiet_setLocal k.ok e2
    rw [k.ctxs] at q
    exact (quiet_setLocal h e1).trans q

/-- After a called block: its scope is gone; its answer is pinned inside of other messages. -/
theorem quiet_leave {a t t' : St} {b v : Nat} {my answer : Option Nat} {W : List Nat} {c : Nat} {rest : List Nat} (ha : Ok a)
    (hc : a.ctxs = c :: rest) (hk : Keep W true (openScope a) t) (hv : Val t (answer.getD (my.getD b))) (hq : Quiet a.ctxs a t)
    (e : leave t b my answer = .ok (t', v)) : Quiet rest a t' ∧ (a.inMsg = 0 → Quiet a.ctxs a t') := by
  unfold leave at e
  simp only at e
  obtain ⟨u, e1, e2⟩ := of_bind e
  have hct : t.ctxs = a.heap.fresh :: a.ctxs := hk.ctxs
  have hsub : ∀ d ∈ rest, d ∈ a.ctxs := fun d hd => by rw [hc]; exact List.mem_cons_of_mem _ hd
  have hl := safe_leave ha hc hk hv
  have q1 : Quiet a.ctxs a u ∧ Ok u ∧ u.ctxs = a.ctxs := by
    unfold closeScope at e1
    rw [hct] at e1
    obtain ⟨w, e3, e4⟩ := of_bind e1
    cases e4
    have hq3 := hq.trans (quiet_sticky e3 a.ctxs)
    have hm : a.heap.fresh ∈ t.ctxs := by rw [hct]; exact List.mem_cons_self
    have hu := (safe_same (f := fun o => { o with sticky := false }) hk.ok (hk.ok.ctx _ hm).2 (hk.ok.ctx_kind hm) (fun _ => rfl)
      (fun _ => rfl) (fun _ _ _ hy => .inl hy)).of_ok e3
    have hnd := hk.ok.nodup
    rw [hct] at hnd
    refine ⟨⟨hq3.msg, hq3.pins⟩, ⟨hu.ok.lt, hu.ok.outs, hu.ok.keys, hu.ok.plain, ?_, (List.nodup_cons.1 hnd).2⟩, rfl⟩
    intro d hd
    exact hu.ok.ctx d (by rw [hu.ctxs, hct]; exact List.mem_cons_of_mem _ hd)
  obtain ⟨q1, ou, cu⟩ := q1
  by_cases hi : u.inMsg > 0
  · rw [if_pos hi] at e2
    obtain ⟨w, e3, e4⟩ := of_bind e2
    cases e4
    have q2 := (quiet_pin ou (by rw [cu, hc]) e3).1
    refine ⟨(q1.sub hsub).trans q2, fun h0 => ?_⟩
    have := q1.msg
    omega
  · rw [if_neg hi] at e2
    cases e2
    exact ⟨q1.sub hsub, fun _ => q1⟩

theorem pinned_all {c : Nat} {a b : St} {rest : List Nat} (hr : Quiet rest a b) (hp : pins b c = pins a c) : Quiet (c :: rest) a b := by
  refine ⟨hr.msg, fun d hd => ?_⟩
  rcases List.mem_cons.1 hd with rfl | hd
  · exact hp
  · exact hr.pins d hd

mutual
theorem quiet_eval {t t' : St} (h : Ok t) {c v : Nat} {rest : List Nat} (hc : t.ctxs = c :: rest) (x : Exp)
    (e : eval false t x = .ok (t', v)) :
    Quiet rest t t' ∧ (∀ deep, (deep = false → t.inMsg = 0) → neatExp deep x = true → pins t' c = pins t c) := by
  have hsub : ∀ d ∈ rest, d ∈ t.ctxs := fun d hd => by rw [hc]; exact List.mem_cons_of_mem _ hd
  have hm : c ∈ t.ctxs := by rw [hc]; exact List.mem_cons_self
  match x with
  | .lit =>
    rw [eval] at e
    cases e
    exact ⟨(quiet_make h _ _ _).sub hsub, fun _ _ _ => (quiet_make h _ _ _).pins c hm⟩
  | .ref n =>
    rw [eval] at e
    obtain ⟨_, _, e⟩ := of_bind e
    obtain ⟨_, _, e⟩ := of_bind e
    cases e
    exact ⟨Quiet.refl _ _, fun _ _ _ => rfl⟩
  | .own n =>
    rw [eval] at e
    obtain ⟨_, _, e⟩ := of_bind e
    obtain ⟨_, _, e⟩ := of_bind e
    cases e
    exact ⟨Quiet.refl _ _, fun _ _ _ => rfl⟩
  | .loc n y =>
    rw [eval] at e
    obtain ⟨⟨a, w⟩, e1, e⟩ := of_bind e
    obtain ⟨b, e2, e⟩ := of_bind e
    cases e
    obtain ⟨q, p⟩ := quiet_eval h hc y e1
    obtain ⟨k, _⟩ := (safe_eval h hc true y).of_ok e1
    have q2 := quiet_setLocal k.ok e2
    rw [k.ctxs] at q2
    refine ⟨q.trans (q2.sub hsub), fun deep hd hn => ?_⟩
    rw [neatExp] at hn
    rw [q2.pins c hm, p deep hd hn]
  | .var n y =>
    rw [eval] at e
    obtain ⟨⟨a, w⟩, e1, e⟩ := of_bind e
    obtain ⟨b, e2, e⟩ := of_bind e
    cases e
    obtain ⟨q, p⟩ := quiet_eval h hc y e1
    obtain ⟨k, _⟩ := (safe_eval h hc true y).of_ok e1
    have q2 := quiet_setVar k.ok e2
    rw [k.ctxs] at q2
    refine ⟨q.trans (q2.sub hsub), fun deep hd hn => ?_⟩
    rw [neatExp] at hn
    rw [q2.pins c hm, p deep hd hn]
  | .ownSet n y =>
    rw [eval] at e
    obtain ⟨⟨a, w⟩, e1, e⟩ := of_bind e
    obtain ⟨b, e2, e⟩ := of_bind e
    cases e
    obtain ⟨q, p⟩ := quiet_eval h hc y e1
    obtain ⟨k, _⟩ := (safe_eval h hc true y).of_ok e1
    have q2 := quiet_setOwn k.ok e2
    rw [k.ctxs] at q2
    refine ⟨q.trans (q2.sub hsub), fun deep hd hn => ?_⟩
    rw [neatExp] at hn
    rw [q2.pins c hm, p deep hd hn]
  | .msg recv ms =>
    rw [eval] at e
    obtain ⟨⟨a, w⟩, e1, e⟩ := of_bind e
    obtain ⟨q, p⟩ := quiet_eval h hc recv e1
    obtain ⟨k, v1⟩ := (safe_eval h hc true recv).of_ok e1
    obtain ⟨m2, q2, p2⟩ := quiet_chain k.ok (by rw [k.ctxs, hc]) v1 ms e
    have hmsg : t'.inMsg = a.inMsg := by rw [m2]; split <;> rfl
    refine ⟨⟨hmsg.trans q.msg, fun d hd => (q2 d hd).trans (q.pins d hd)⟩, fun deep hd hn => ?_⟩
    rw [neatExp, Bool.and_eq_true] at hn
    rw [p2 deep (fun h => by rw [q.msg]; exact hd h) hn.2, p deep hd hn.1]

theorem quiet_chain {t t' : St} (h : Ok t) {c v : Nat} {rest : List Nat} (hc : t.ctxs = c :: rest) {r level : Nat} {lit : Bool}
    (hr : Val t r) (ms : List Msg) (e : chain false t level lit r ms = .ok (t', v)) :
    t'.inMsg = (if ms = [] then t.inMsg else level) ∧ (∀ d ∈ rest, pins t' d = pins t d) ∧
    (∀ deep, (deep = false → level = 0) → neatMsgs deep ms = true → pins t' c = pins t c) := by
  match ms with
  | [] =>
    rw [chain] at e
    cases e
    exact ⟨rfl, fun _ _ => rfl, fun _ _ _ => rfl⟩
  | .mk args steps res :: ms =>
    rw [chain] at e
    obtain ⟨⟨t1, old⟩, e1, e⟩ := of_bind e
    simp only at e
    have k1 := (safe_hold (h.setMsg level) hr).of_ok e1
    have k1 : Keep [] false t t1 := ⟨k1.ok, k1.ctxs, k1.kind, k1.vars⟩
    have q1 := quiet_hold e1 (c :: rest)
    have c1 : t1.ctxs = c :: rest := by rw [k1.ctxs]; exact hc
    have r1 : Val t1 r := k1.val hr
    obtain ⟨t2, e2, e⟩ := of_bind e
    have hp2 : Safe (if lit then pin t1 r else .ok t1) (Keep [] false t1) := by
      cases lit with
      | true => exact safe_pin k1.ok c1 r1
      | false => exact Keep.refl k1.ok _ _
    have k2 := hp2.of_ok e2
    have q2 : Quiet rest t1 t2 ∧ pins t2 c = (if lit then [r] else []) ++ pins t1 c := by
      cases lit with
      | true => exact quiet_pin k1.ok c1 e2
      | false => cases e2; exact ⟨Quiet.refl _ _, rfl⟩
    have c2 : t2.ctxs = c :: rest := by rw [k2.ctxs, c1]
    have r2 := k2.val r1
    obtain ⟨⟨t3, vs⟩, e3, e⟩ := of_bind e
    simp only at e
    obtain ⟨k3, v3, l3⟩ := (safe_args k2.ok c2 false args).of_ok e3
    simp only at k3 v3 l3
    obtain ⟨q3, p3⟩ := quiet_args k2.ok c2 args e3
    have c3 : t3.ctxs = c :: rest := by rw [k3.ctxs, c2]
    have r3 := k3.val r2
    have vr : Vals t3 (r :: vs) := by
      intro w hw
      rcases List.mem_cons.1 hw with rfl | hw
      · exact r3
      · exact v3 w hw
    obtain ⟨⟨t4, regs⟩, e4, e⟩ := of_bind e
    simp only at e
    obtain ⟨k4, v4⟩ := (safe_steps k3.ok c3 vr steps).of_ok e4
    simp only at k4 v4
    obtain ⟨q4, p4⟩ := quiet_steps k3.ok c3 vr steps e4
    obtain ⟨w, ew, e⟩ := of_bind e
    have w4 := v4.at (var_ok.1 ew)
    obtain ⟨t5, e5, e⟩ := of_bind e
    have k5 := (safe_letGo k4.ok (k4.val r3)).of_ok e5
    have q5 : Quiet (c :: rest) t4 t5 := quiet_sticky e5 _
    have c5 : t5.ctxs = c :: rest := by rw [k5.ctxs, k4.ctxs, c3]
    obtain ⟨t6, e6, e⟩ := of_bind e
    have k6 := (safe_unpin k5.ok c5).of_ok e6
    obtain ⟨q6, p6⟩ := quiet_unpin k5.ok c5 e6
    obtain ⟨⟨t7, z⟩, e7, e⟩ := of_bind e
    cases e
    obtain ⟨m7, q7, p7⟩ := quiet_chain k6.ok (by rw [k6.ctxs, c5]) (k6.val (k5.val w4)) ms e7
    refine ⟨by simp, ?_, ?_⟩
    · intro d hd
      have h1 := q1.pins d (List.mem_cons_of_mem _ hd)
      have h5 := q5.pins d (List.mem_cons_of_mem _ hd)
      have h0 : pins { t with inMsg := level } d = pins t d := rfl
      have h8 : pins { t7 with inMsg := level } d = pins t7 d := rfl
      rw [h8, q7 d hd, q6.pins d hd, h5, q4.pins d hd, q3.pins d hd, q2.1.pins d hd, h1, h0]
    · intro deep hdp hn
      simp only [neatMsgs, Bool.and_eq_true] at hn
      have h1 := q1.pins c List.mem_cons_self
      have h5 := q5.pins c List.mem_cons_self
      have h0 : pins { t with inMsg := level } c = pins t c := rfl
      have h8 : pins { t7 with inMsg := level } c = pins t7 c := rfl
      have hm3 : t3.inMsg = level := by rw [q3.msg, q2.1.msg, q1.msg]
      rw [h8, p7 true (fun h => nomatch h) hn.2, p6, h5, p4 deep (fun h => by rw [hm3]; exact hdp h) hn.1.2, p3 hn.1.1, q2.2, h1, h0]
      have hl : vs.length + (if lit = true then 1 else 0) = (vs.reverse ++ if lit = true then [r] else []).length := by
        cases lit <;> simp
      rw [← List.append_assoc, hl, List.drop_left]

theorem quiet_args {t t' : St} (h : Ok t) {c : Nat} {vs rest : List Nat} (hc : t.ctxs = c :: rest) (args : List Exp)
    (e : evalArgs false t args = .ok (t', vs)) :
    Quiet rest t t' ∧ (neatArgs args = true → pins t' c = vs.reverse ++ pins t c) := by
  match args with
  | [] =>
    rw [evalArgs] at e
    cases e
    exact ⟨Quiet.refl _ _, fun _ => rfl⟩
  | x :: xs =>
    rw [evalArgs] at e
    obtain ⟨⟨t1, v⟩, e1, e⟩ := of_bind e
    simp only at e
    obtain ⟨k1, v1⟩ := (safe_eval (h.setMsg (t.inMsg + 1)) hc true x).of_ok e1
    simp only at k1 v1
    obtain ⟨q1, p1⟩ := quiet_eval (h.setMsg (t.inMsg + 1)) hc x e1
    have c1 : t1.ctxs = c :: rest := by rw [k1.ctxs]; exact hc
    obtain ⟨t2, e2, e⟩ := of_bind e
    have k2 := (safe_pin (t := { t1 with inMsg := t.inMsg }) (k1.ok.setMsg t.inMsg) c1 v1).of_ok e2
    obtain ⟨q2, p2⟩ := quiet_pin (t := { t1 with inMsg := t.inMsg }) (k1.ok.setMsg t.inMsg) c1 e2
    have c2 : t2.ctxs = c :: rest := by rw [k2.ctxs]; exact c1
    obtain ⟨⟨t3, ws⟩, e3, e⟩ := of_bind e
    cases e
    obtain ⟨q3, p3⟩ := quiet_args k2.ok c2 xs e3
    have hz : ∀ d, pins { t with inMsg := t.inMsg + 1 } d = pins t d := fun _ => rfl
    have hy : ∀ d, pins { t1 with inMsg := t.inMsg } d = pins t1 d := fun _ => rfl
    refine ⟨⟨q3.msg.trans q2.msg, fun d hd => ?_⟩, fun hn => ?_⟩
    · rw [q3.pins d hd, q2.pins d hd, hy, q1.pins d hd, hz]
    · rw [neatArgs, Bool.and_eq_true] at hn
      rw [p3 hn.2, p2, hy, p1 true (fun h => nomatch h) hn.1, hz]
      simp

theorem quiet_steps {t t' : St} (h : Ok t) {c : Nat} {rest regs regs' : List Nat} (hc : t.ctxs = c :: rest) (hr : Vals t regs)
    (steps : List Step) (e : native false t regs steps = .ok (t', regs')) :
    Quiet rest t t' ∧ (∀ deep, (deep = false → t.inMsg = 0) → neatSteps deep steps = true → pins t' c = pins t c) := by
  have hsub : ∀ d ∈ rest, d ∈ t.ctxs := fun d hd => by rw [hc]; exact List.mem_cons_of_mem _ hd
  have hm : c ∈ t.ctxs := by rw [hc]; exact List.mem_cons_self
  match steps with
  | [] =>
    rw [native] at e
    cases e
    exact ⟨Quiet.refl _ _, fun _ _ _ => rfl⟩
  | .basic b :: l =>
    rw [native] at e
    obtain ⟨⟨t1, regs1⟩, e1, e⟩ := of_bind e
    obtain ⟨k1, v1, _⟩ := (safe_basic h hc hr b).of_ok e1
    obtain ⟨q1, p1⟩ := quiet_basic h hc hr e1
    obtain ⟨q2, p2⟩ := quiet_steps k1.ok (by rw [k1.ctxs, hc]) v1 l e
    refine ⟨q1.trans q2, fun deep hd hn => ?_⟩
    have hb : (∀ i, b ≠ .pin i) ∧ neatSteps deep l = true := by
      cases b with
      | pin i => simp [neatSteps] at hn
      | new a => exact ⟨(fun _ h => nomatch h), hn⟩
      | elem i j => exact ⟨(fun _ h => nomatch h), hn⟩
      | get m i n => exact ⟨(fun _ h => nomatch h), hn⟩
      | put m i n v => exact ⟨(fun _ h => nomatch h), hn⟩
      | del m i n => exact ⟨(fun _ h => nomatch h), hn⟩
      | push i v => exact ⟨(fun _ h => nomatch h), hn⟩
      | pop i => exact ⟨(fun _ h => nomatch h), hn⟩
      | shift i => exact ⟨(fun _ h => nomatch h), hn⟩
    rw [p2 deep (fun h => by rw [q1.msg]; exact hd h) hb.2, (p1 hb.1).pins c hm]
  | .clean :: l =>
    rw [native] at e
    obtain ⟨t1, e1, e⟩ := of_bind e
    cases e1
    obtain ⟨q2, p2⟩ := quiet_steps h hc hr l e
    exact ⟨q2, fun deep hd hn => p2 deep hd hn⟩
  | .run b ps my body :: l =>
    rw [native] at e
    obtain ⟨blk, eb, e⟩ := of_bind e
    obtain ⟨me, em, e⟩ := of_bind e
    obtain ⟨_, _, e⟩ := of_bind e
    have hme := safe_varvar.of_ok em
    have km := keep_make h .scope false true
    have ho := ok_open h
    have co : (openScope t).ctxs = t.heap.fresh :: t.ctxs := rfl
    have vo : Vals (openScope t) regs := fun v hv => km.val (hr v hv)
    have vme : ∀ m, me = some m → Val (openScope t) m := by
      intro m hm
      obtain ⟨j, _, ej⟩ := hme m hm
      exact vo.at ej
    have q0 : Quiet t.ctxs t (openScope t) := by
      have := quiet_make h .scope false true
      exact ⟨this.msg, this.pins⟩
    obtain ⟨t1, e1, e⟩ := of_bind e
    have k1 := (safe_bindParams ho co vo).of_ok e1
    have q1 := (quiet_bindParams ho co vo e1).sub (D' := t.ctxs) (fun d hd => by rw [co]; exact List.mem_cons_of_mem _ hd)
    have c1 : t1.ctxs = t.heap.fresh :: t.ctxs := by rw [k1.ctxs, co]
    obtain ⟨t2, e2, e⟩ := of_bind e
    have k2 := (safe_bindSelf k1.ok c1 (k1.val (vo.at (var_ok.1 eb))) (fun m hm => k1.val (vme m hm))).of_ok e2
    have q2 := (quiet_bindSelf k1.ok c1 (fun m hm => k1.val (vme m hm)) e2).sub (D' := t.ctxs)
      (fun d hd => by rw [c1]; exact List.mem_cons_of_mem _ hd)
    have c2 : t2.ctxs = t.heap.fresh :: t.ctxs := by rw [k2.ctxs, c1]
    obtain ⟨⟨t3, answer⟩, e3, e⟩ := of_bind e
    simp only at e
    obtain ⟨k3, v3⟩ := (safe_stmts k2.ok c2 body).of_ok e3
    simp only at k3 v3
    have q3 := quiet_stmts k2.ok c2 body e3
    have kk : Keep (writesStmts body) true (openScope t) t3 := ((k1.trans k2).trans k3).mono (by simp)
    have hav : Val t3 (answer.getD (me.getD blk)) := by
      cases answer with
      | some a => exact v3 a rfl
      | none =>
        cases me with
        | none => exact kk.val (vo.at (var_ok.1 eb))
        | some m => exact kk.val (vme m rfl)
    obtain ⟨⟨t4, v⟩, e4, e⟩ := of_bind e
    simp only at e
    obtain ⟨k4, v4⟩ := (safe_leave h hc kk hav).of_ok e4
    simp only at k4 v4
    obtain ⟨q4, p4⟩ := quiet_leave h hc kk hav (((q0.trans q1).trans q2).trans q3) e4
    obtain ⟨q5, p5⟩ := quiet_steps k4.ok (by rw [k4.ctxs, hc]) ((hr.keep k4).snoc v4) l e
    refine ⟨q4.trans q5, fun deep hd hn => ?_⟩
    simp only [neatSteps, Bool.and_eq_true, Bool.not_eq_true'] at hn
    rw [p5 deep (fun h => by rw [q4.msg]; exact hd h) hn.2, (p4 (hd hn.1)).pins c hm]

theorem quiet_stmts {t t' : St} (h : Ok t) {c : Nat} {a : Option Nat} {rest : List Nat} (hc : t.ctxs = c :: rest) (ss : List Stmt)
    (e : stmts false t ss = .ok (t', a)) : Quiet rest t t' := by
  match ss with
  | [] =>
    rw [stmts] at e
    cases e
    exact Quiet.refl _ _
  | .mk x ret gc :: ss =>
    rw [stmts] at e
    obtain ⟨⟨t1, v⟩, e1, e⟩ := of_bind e
    simp only at e
    obtain ⟨k1, _⟩ := (safe_eval h hc true x).of_ok e1
    have q1 := (quiet_eval h hc x e1).1
    cases ret with
    | true => cases e; exact q1
    | false => exact q1.trans (quiet_stmts k1.ok (by rw [k1.ctxs, hc]) ss e)
end

end Verif.Model.Temp
