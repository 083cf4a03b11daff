import Verif.Lemmas.TempGood

/-! Helper lemmas about intermediate values: programs that follow the rule lose nothing. -/

namespace Verif.Model.Temp

open Verif.Model.GC
open Verif.Spec.GC (Reach)
open Verif.Spec.Temp

theorem returns_answer : ∀ {ss : List Stmt} {t t' : St}, stmts false t ss = .ok (t', none) → returns ss = false
  | [], _, _, _ => rfl
  | .mk x ret gc :: ss, t, t', e => by
    rw [stmts] at e
    obtain ⟨⟨u, v⟩, e1, e2⟩ := of_bind e
    cases ret with
    | true => simp at e2
    | false =>
      simp only [Bool.false_eq_true, if_false] at e2
      obtain ⟨w, e3, e4⟩ := of_bind e2
      rw [returns, Bool.false_or]
      exact returns_answer e4

/-- The receiver is held by names that are not written any more. -/
def Named (t : St) (regs : List Nat) (W : List Nat) : Prop :=
  ∃ r N, regs[0]? = some r ∧ Path t N t.ctxs r ∧ ∀ n ∈ N, n ∉ W

theorem Named.keep {a b : St} {regs W W' : List Nat} (h : Named a regs (W ++ W')) (ha : Ok a) (hk : Keep W false a b) (new : List Nat) :
    Named b (regs ++ new) W' := by
  obtain ⟨r, N, hr, hp, hN⟩ := h
  refine ⟨r, N, ?_, ?_, fun n hn hm => hN n hn (List.mem_append.2 (.inr hm))⟩
  · obtain ⟨hlt, e⟩ := List.getElem?_eq_some_iff.1 hr
    rw [List.getElem?_append_left hlt]
    exact hr
  · rw [hk.ctxs]
    exact hp.keep ha hk (fun c hc => ⟨hc, fun h => nomatch h⟩) (fun n hn hm => hN n hn (List.mem_append.2 (.inl hm)))

theorem Named.reaches {t : St} {regs W G : List Nat} (h : Named t regs W) {v : Nat} (hv : regs[0]? = some v) : Reaches t G v := by
  obtain ⟨r, N, hr, hp, _⟩ := h
  rw [hr] at hv
  cases hv
  exact reaches_iff.2 (hp.held fun _ h => h)

theorem path_recv {t t' : St} (h : Ok t) {c : Nat} {rest : List Nat} (hc : t.ctxs = c :: rest) {recv : Exp} (hl : isLiteral recv = false)
    {r : Nat} (e : eval false t recv = .ok (t', r)) : Path t' (holders recv) t'.ctxs r := by
  cases recv with
  | ref n =>
    rw [eval] at e
    obtain ⟨q, e1, e2⟩ := of_bind e
    obtain ⟨v, e3, e4⟩ := of_bind e2
    cases e4
    have hq := (safe_find h).of_ok e1
    rcases ((safe_orNil h hc hq.1).of_ok e3).2 with hr | hr
    · obtain ⟨d, hd, ed⟩ := hq.2 r hr
      exact .step (.root hd) ⟨n, by simp [holders], ed⟩
    · exact hr.mono (by simp [holders])
  | own n =>
    rw [eval] at e
    obtain ⟨q, e1, e2⟩ := of_bind e
    obtain ⟨v, e3, e4⟩ := of_bind e2
    cases e4
    have hq := (safe_findOwn h).of_ok e1
    rcases ((safe_orNil h hc hq.1).of_ok e3).2 with hr | hr
    · exact (hq.2 r hr).mono (by intro k hk; simp [holders] at hk ⊢; rcases hk with hk | hk <;> simp [hk])
    · exact hr.mono (by simp [holders])
  | lit => cases hl
  | loc n y => cases hl
  | var n y => cases hl
  | ownSet n y => cases hl
  | msg recv ms => cases hl

theorem basic_regs {t t' : St} {regs regs' : List Nat} {b : Basic} (e : basic t regs b = .ok (t', regs')) : ∃ new, regs' = regs ++ new := by
  cases b with
  | new a => cases e; exact ⟨_, rfl⟩
  | elem i j =>
    simp only [basic] at e
    obtain ⟨_, _, e⟩ := of_bind e; obtain ⟨_, _, e⟩ := of_bind e; obtain ⟨_, _, e⟩ := of_bind e; cases e; exact ⟨_, rfl⟩
  | get m i n =>
    simp only [basic] at e
    obtain ⟨_, _, e⟩ := of_bind e; obtain ⟨_, _, e⟩ := of_bind e; obtain ⟨_, _, e⟩ := of_bind e; cases e; exact ⟨_, rfl⟩
  | put m i n v =>
    simp only [basic] at e
    obtain ⟨_, _, e⟩ := of_bind e; obtain ⟨_, _, e⟩ := of_bind e; obtain ⟨_, _, e⟩ := of_bind e; cases e
    exact ⟨[], (List.append_nil _).symm⟩
  | del m i n =>
    simp only [basic] at e
    obtain ⟨_, _, e⟩ := of_bind e; obtain ⟨_, _, e⟩ := of_bind e; cases e
    exact ⟨[], (List.append_nil _).symm⟩
  | push i v =>
    simp only [basic] at e
    obtain ⟨_, _, e⟩ := of_bind e; obtain ⟨_, _, e⟩ := of_bind e; obtain ⟨_, _, e⟩ := of_bind e; obtain ⟨_, _, e⟩ := of_bind e; cases e
    exact ⟨[], (List.append_nil _).symm⟩
  | pop i =>
    simp only [basic] at e
    obtain ⟨_, _, e⟩ := of_bind e; obtain ⟨_, _, e⟩ := of_bind e; obtain ⟨_, _, e⟩ := of_bind e; cases e
    exact ⟨[], (List.append_nil _).symm⟩
  | shift i =>
    simp only [basic] at e
    obtain ⟨_, _, e⟩ := of_bind e; obtain ⟨_, _, e⟩ := of_bind e; obtain ⟨_, _, e⟩ := of_bind e; cases e
    exact ⟨[], (List.append_nil _).symm⟩
  | pin i =>
    simp only [basic] at e
    obtain ⟨_, _, e⟩ := of_bind e; obtain ⟨_, _, e⟩ := of_bind e; cases e
    exact ⟨[], (List.append_nil _).symm⟩

theorem later_ok {t : St} {safe regs : List Nat} {named : Bool} {W U G : List Nat} (hn : named = true → Named t regs W)
    (h : U.all (fun i => safe.contains i || decide (regs.length ≤ i) || (named && i == 0)) = true) :
    ∀ i ∈ U, i ∈ safe ∨ ∀ v, regs[i]? = some v → Reaches t G v := by
  intro i hi
  have := List.all_eq_true.1 h i hi
  simp only [Bool.or_eq_true, decide_eq_true_eq, Bool.and_eq_true, beq_iff_eq, List.contains_iff_mem] at this
  rcases this with (h1 | h1) | ⟨h1, h2⟩
  · exact .inl h1
  · refine .inr fun v hv => ?_
    obtain ⟨hlt, _⟩ := List.getElem?_eq_some_iff.1 hv
    omega
  · subst h2
    exact .inr fun v hv => (hn h1).reaches hv

mutual
theorem tidy_exp {t : St} (h : Ok t) {c : Nat} {rest : List Nat} (hc : t.ctxs = c :: rest) (x : Exp) (hx : tidyExp x = true) :
    CalmExp t x := by
  match x with
  | .lit => simp only [CalmExp]
  | .ref n => simp only [CalmExp]
  | .own n => simp only [CalmExp]
  | .loc n y => rw [tidyExp] at hx; rw [CalmExp]; exact tidy_exp h hc y hx
  | .var n y => rw [tidyExp] at hx; rw [CalmExp]; exact tidy_exp h hc y hx
  | .ownSet n y => rw [tidyExp] at hx; rw [CalmExp]; exact tidy_exp h hc y hx
  | .msg recv ms =>
    rw [tidyExp, Bool.and_eq_true] at hx
    rw [CalmExp]
    refine ⟨tidy_exp h hc recv hx.1, fun t1 r e => ?_⟩
    obtain ⟨k1, v1⟩ := (safe_eval h hc true recv).of_ok e
    exact tidy_msgs k1.ok (by rw [k1.ctxs, hc]) v1 (fun hl => path_recv h hc hl e) ms hx.2

theorem tidy_msgs {t : St} (h : Ok t) {c : Nat} {rest : List Nat} (hc : t.ctxs = c :: rest) {r level : Nat} {lit : Bool} {names : List Nat}
    (hr : Val t r) (hp : lit = false → Path t names t.ctxs r) (ms : List Msg) (hx : tidyMsgs lit names ms = true) :
    CalmChain t level lit r ms := by
  match ms with
  | [] => simp only [CalmChain]
  | .mk args steps res :: ms =>
    simp only [tidyMsgs, Bool.and_eq_true] at hx
    obtain ⟨⟨⟨x1, x2⟩, x3⟩, x4⟩ := hx
    rw [CalmChain]
    intro t1 old e1 t2 e2
    have k1 := (safe_hold (h.setMsg level) hr).of_ok e1
    have k1 : Keep [] false t t1 := ⟨k1.ok, k1.ctxs, k1.kind, k1.vars⟩
    have c1 : t1.ctxs = c :: rest := by rw [k1.ctxs]; exact hc
    have r1 : Val t1 r := k1.val hr
    have hp2 : Safe (if lit then pin t1 r else .ok t1) (Keep [] false t1) := by
      cases lit with
      | true => exact safe_pin k1.ok c1 r1
      | false => exact Keep.refl k1.ok _ _
    have k2 := hp2.of_ok e2
    have c2 : t2.ctxs = c :: rest := by rw [k2.ctxs, c1]
    have r2 := k2.val r1
    refine ⟨tidy_args k2.ok c2 args x1, ?_⟩
    intro t3 vs e3
    obtain ⟨k3, v3, l3⟩ := (safe_args k2.ok c2 false args).of_ok e3
    simp only at k3 v3 l3
    have c3 : t3.ctxs = c :: rest := by rw [k3.ctxs, c2]
    have r3 := k3.val r2
    have vr : Vals t3 (r :: vs) := by
      intro w hw
      rcases List.mem_cons.1 hw with rfl | hw
      · exact r3
      · exact v3 w hw
    -- a receiver held by names that the arguments do not write
    have hkept : lit = false → (∀ n ∈ names, n ∉ writesArgs false args) → Path t3 names t3.ctxs r := by
      intro hl hW
      have kk := (k1.trans k2).trans k3
      rw [kk.ctxs]
      exact (hp hl).keep h kk (fun d hd => ⟨hd, fun h => nomatch h⟩) (by simpa using hW)
    refine ⟨?_, ?_, ?_⟩
    · simp only [Bool.or_eq_true] at x2
      rcases x2 with ((x2 | x2) | x2) | x2
      · exact .inl x2
      · exact .inr (.inl (by simpa using x2))
      · refine .inr (.inr (.inl ?_))
        simpa using x2
      · refine .inr (.inr (.inr ?_))
        simp only [Bool.and_eq_true, Bool.not_eq_true', List.all_eq_true] at x2
        refine reaches_iff.2 ((hkept x2.1 fun n hn hm => ?_).held fun _ h => h)
        have := x2.2 n hn
        simp [hm] at this
    · rw [l3]
      refine tidy_steps k3.ok c3 vr (by simp [l3]) (W := writesSteps steps) ?_ steps rfl x3
      intro hn
      simp only [Bool.and_eq_true, Bool.not_eq_true', List.all_eq_true] at hn
      refine ⟨r, names, rfl, hkept hn.1.1 fun n hm hw => ?_, fun n hm hw => ?_⟩
      · have := hn.1.2 n hm
        simp [hw] at this
      · have := hn.2 n hm
        simp [hw] at this
    · intro t4 regs e4 v ev t5 e5 t6 e6
      obtain ⟨k4, v4⟩ := (safe_steps k3.ok c3 vr steps).of_ok e4
      simp only at k4 v4
      have w4 := v4.at (var_ok.1 ev)
      have k5 := (safe_letGo k4.ok (k4.val r3)).of_ok e5
      have c5 : t5.ctxs = c :: rest := by rw [k5.ctxs, k4.ctxs, c3]
      have k6 := (safe_unpin k5.ok c5).of_ok e6
      exact tidy_msgs k6.ok (by rw [k6.ctxs, c5]) (k6.val (k5.val w4)) (fun (h : true = false) => nomatch h) ms x4

theorem tidy_args {t : St} (h : Ok t) {c : Nat} {rest : List Nat} (hc : t.ctxs = c :: rest) (args : List Exp) (hx : tidyArgs args = true) :
    CalmArgs t args := by
  match args with
  | [] => simp only [CalmArgs]
  | x :: xs =>
    rw [tidyArgs, Bool.and_eq_true] at hx
    rw [CalmArgs]
    refine ⟨tidy_exp (h.setMsg (t.inMsg + 1)) hc x hx.1, fun t1 v e1 t2 e2 => ?_⟩
    obtain ⟨k1, v1⟩ := (safe_eval (h.setMsg (t.inMsg + 1)) hc true x).of_ok e1
    simp only at k1 v1
    have c1 : t1.ctxs = c :: rest := by rw [k1.ctxs]; exact hc
    have k2 := (safe_pin (t := { t1 with inMsg := t.inMsg }) (k1.ok.setMsg t.inMsg) c1 v1).of_ok e2
    exact tidy_args k2.ok (by rw [k2.ctxs]; exact c1) xs hx.2

theorem tidy_steps {t : St} (h : Ok t) {c : Nat} {rest regs safe : List Nat} {named : Bool} {n res : Nat} (hc : t.ctxs = c :: rest)
    (hr : Vals t regs) (hl : regs.length = n) {W : List Nat} (hn : named = true → Named t regs W) (steps : List Step)
    (hw : W = writesSteps steps) (hx : tidySteps safe named n res steps = true) : CalmSteps t safe regs res steps := by
  match steps with
  | [] => simp only [CalmSteps]
  | .basic b :: l =>
    rw [tidySteps] at hx
    rw [writesSteps] at hw
    rw [CalmSteps]
    intro t1 regs1 e1
    obtain ⟨k1, v1, l1⟩ := (safe_basic h hc hr b).of_ok e1
    simp only at k1 v1 l1
    obtain ⟨new, rfl⟩ := basic_regs e1
    refine tidy_steps k1.ok (by rw [k1.ctxs, hc]) v1 (by rw [l1, hl]) (W := writesSteps l) ?_ l rfl hx
    intro hnm
    have := hn hnm
    rw [hw] at this
    exact this.keep h k1 new
  | .clean :: l =>
    rw [tidySteps, Bool.and_eq_true] at hx
    rw [writesSteps] at hw
    rw [CalmSteps]
    subst hl
    exact ⟨later_ok hn hx.1, tidy_steps h hc hr rfl hn l hw hx.2⟩
  | .run b ps my body :: l =>
    simp only [tidySteps, Bool.and_eq_true] at hx
    obtain ⟨⟨⟨x1, x2⟩, x3⟩, x4⟩ := hx
    rw [writesSteps] at hw
    rw [CalmSteps]
    intro blk eb me em t1 e1 t2 e2
    have hme := safe_varvar.of_ok em
    have km := keep_make h .scope false true
    have ho := ok_open h
    have co : (openScope t).ctxs = t.heap.fresh :: t.ctxs := rfl
    have vo : Vals (openScope t) regs := fun v hv => km.val (hr v hv)
    have vme : ∀ m, me = some m → Val (openScope t) m := by
      intro m hm
      obtain ⟨j, _, ej⟩ := hme m hm
      exact vo.at ej
    have k1 := (safe_bindParams ho co vo).of_ok e1
    have k2 := (safe_bindSelf k1.ok (by rw [k1.ctxs, co]) (k1.val (vo.at (var_ok.1 eb))) (fun m hm => k1.val (vme m hm))).of_ok e2
    have c2 : t2.ctxs = t.heap.fresh :: t.ctxs := by rw [k2.ctxs, k1.ctxs, co]
    refine ⟨tidy_stmts k2.ok c2 body x1, ?_⟩
    intro t3 answer e3
    obtain ⟨k3, v3⟩ := (safe_stmts k2.ok c2 body).of_ok e3
    simp only at k3 v3
    have kk : Keep (writesStmts body) true (openScope t) t3 := ((k1.trans k2).trans k3).mono (by simp)
    have hav : Val t3 (answer.getD (me.getD blk)) := by
      cases answer with
      | some a => exact v3 a rfl
      | none =>
        cases me with
        | none => exact kk.val (vo.at (var_ok.1 eb))
        | some m => exact kk.val (vme m rfl)
    refine ⟨?_, ?_⟩
    · rintro rfl
      simp only [Bool.or_eq_true, Bool.and_eq_true, beq_iff_eq, List.contains_iff_mem] at x2
      rcases x2 with (x2 | x2) | ⟨x2, x5⟩
      · rw [returns_answer e3] at x2; cases x2
      · exact .inl x2
      · right
        obtain ⟨r, N, hr0, hp, hN⟩ := hn x2
        have hme0 : me.getD blk = r := by
          cases my with
          | none =>
            simp only [Option.getD_none] at x5
            subst x5
            have := var_ok.1 eb
            rw [hr0] at this
            cases this
            cases me with
            | none => rfl
            | some m => obtain ⟨j, hj, _⟩ := hme m rfl; cases hj
          | some j =>
            simp only [Option.getD_some] at x5
            subst x5
            obtain ⟨m, e5, e6⟩ := of_bind em
            cases e6
            have := var_ok.1 e5
            rw [hr0] at this
            cases this
            rfl
        rw [hme0]
        have hfr : t.heap.fresh ∉ t.ctxs := fun hm => by have := h.ctx_lt hm; omega
        have hpo : Path (openScope t) N t.ctxs r := by
          have := hp.keep h km (fun d hd => ⟨hd, fun h => nomatch h⟩) (by simp)
          exact this
        have hp3 : Path t3 N t.ctxs r := by
          refine hpo.keep ho kk ?_ ?_
          · intro d hd
            refine ⟨by rw [co]; exact List.mem_cons_of_mem _ hd, ?_⟩
            rintro _ d' rest' hd' rfl
            rw [co] at hd'
            cases hd'
            exact hfr hd
          · intro k hk hm
            exact hN k hk (by rw [hw]; exact List.mem_append.2 (.inl hm))
        exact reaches_iff.2 (hp3.held fun d hd => by rw [kk.ctxs, co]; exact List.mem_cons_of_mem _ hd)
    · intro t4 v e4
      obtain ⟨k4, v4⟩ := (safe_leave h hc kk hav).of_ok e4
      simp only at k4 v4
      have hn4 : named = true → Named t4 (regs ++ [v]) (writesSteps l) := by
        intro hnm
        have := hn hnm
        rw [hw] at this
        exact this.keep h k4 [v]
      have hn4' : named = true → Named t4 regs (writesSteps l) := by
        intro hnm
        have := hn hnm
        rw [hw] at this
        have := this.keep h k4 []
        rw [List.append_nil] at this
        exact this
      subst hl
      refine ⟨later_ok hn4' x3, ?_⟩
      exact tidy_steps k4.ok (by rw [k4.ctxs, hc]) ((hr.keep k4).snoc v4) (by simp) hn4 l rfl x4

theorem tidy_stmts {t : St} (h : Ok t) {c : Nat} {rest : List Nat} (hc : t.ctxs = c :: rest) (ss : List Stmt) (hx : tidyStmts ss = true) :
    CalmStmts t ss := by
  match ss with
  | [] => simp only [CalmStmts]
  | .mk x ret gc :: ss =>
    rw [tidyStmts, Bool.and_eq_true] at hx
    rw [CalmStmts]
    refine ⟨tidy_exp h hc x hx.1, fun t1 v e _ => ?_⟩
    obtain ⟨k1, _⟩ := (safe_eval h hc true x).of_ok e
    exact tidy_stmts k1.ok (by rw [k1.ctxs, hc]) ss hx.2
end

end Verif.Model.Temp
