import Verif.Lemmas.ReadBackRun

/-!
# Evaluating the tree of a value makes a copy of the value
-/

namespace Verif.Model.ReadBack
open Verif.Spec (Dict)
open Verif.Spec.ReadBack
open Verif.Model.Interp

/-! ## Steps of the walker -/

section
variable {E : Env}

theorem args_none {s : St} {keys : Nat} : Ends (fun n => evalArgs (exec E n) keys [] s) (s, []) := Ends.ok _

theorem args_one {s s1 : St} {keys x : Nat} {e : Node} {f : Bool} (hk : keys ≤ 1)
    (h : Ends (fun n => exec E n (.expr e) s) (s1, x, f)) : Ends (fun n => evalArgs (exec E n) keys [e] s) (s1, [x]) := by
  obtain ⟨N, hN⟩ := h
  refine ⟨N, fun n hn => ?_⟩
  have := hN n hn
  dsimp only at this ⊢
  unfold evalArgs
  rw [this, Res.ok_bind]
  dsimp only
  rw [if_neg (by omega)]
  rfl

theorem args_two {s s1 s2 : St} {keys x y : Nat} {e e' : Node} {f f' : Bool} (hk : keys ≤ 1)
    (h : Ends (fun n => exec E n (.expr e) s) (s1, x, f)) (h' : Ends (fun n => exec E n (.expr e') s1) (s2, y, f')) :
    Ends (fun n => evalArgs (exec E n) keys [e, e'] s) (s2, [x, y]) := by
  obtain ⟨N, hN⟩ := h
  obtain ⟨M, hM⟩ := h'
  refine ⟨max N M, fun n hn => ?_⟩
  have h1 := hN n (by omega)
  have h2 := hM n (by omega)
  dsimp only at h1 h2 ⊢
  unfold evalArgs
  rw [h1, Res.ok_bind]
  dsimp only
  rw [if_neg (by omega)]
  unfold evalArgs
  rw [h2, Res.ok_bind]
  dsimp only
  rw [if_neg (by omega)]
  rfl

theorem chain_nil {s : St} {lit : Bool} {r : Nat} : Ends (fun n => chain (exec E n) lit r [] s) (s, r) := Ends.ok _

theorem chain_cons {s s1 s2 s3 : St} {lit : Bool} {r r' v : Nat} {m : Name} {as : List Node} {vs : List Nat}
    {ms : List (Name × List Node)} {f : Bool} (hs : s.sandbox = false)
    (ha : Ends (fun n => evalArgs (exec E n) (if lit then 1 else 0) as s) (s1, vs))
    (hm : Ends (fun n => exec E n (.send r m (vs ++ [nilO])) s1) (s2, v, f))
    (hr : Ends (fun n => chain (exec E n) true v ms s2) (s3, r')) :
    Ends (fun n => chain (exec E n) lit r ((m, as) :: ms) s) (s3, r') := by
  obtain ⟨N, hN⟩ := ha
  obtain ⟨M, hM⟩ := hm
  obtain ⟨K, hK⟩ := hr
  refine ⟨max N (max M K), fun n hn => ?_⟩
  have h1 := hN n (by omega)
  have h2 := hM n (by omega)
  have h3 := hK n (by omega)
  dsimp only at h1 h2 h3 ⊢
  unfold chain
  rw [tick_ok hs, Res.ok_bind, h1, Res.ok_bind]
  dsimp only
  rw [h2, Res.ok_bind]
  exact h3

theorem ends_str {s : St} (hs : s.sandbox = false) (k : Name) :
    Ends (fun n => exec E n (.expr (.str k)) s) ((newStr (counted s) k).1, s.fresh, false) := by
  refine Ends.expr ⟨0, fun n _ => ?_⟩
  dsimp only
  unfold expr
  rw [tick_ok hs, Res.ok_bind]
  rfl

theorem ends_num {s : St} (hs : s.sandbox = false) (k : Int) :
    Ends (fun n => exec E n (.expr (.num k)) s) ((newNum (counted s) k).1, s.fresh, false) := by
  refine Ends.expr ⟨0, fun n _ => ?_⟩
  dsimp only
  unfold expr
  rw [tick_ok hs, Res.ok_bind]
  rfl

theorem ends_ref {s : St} (hs : s.sandbox = false) (hf : s.flow = none) {k : Name} {v : Nat} (h : look s k = some v) :
    Ends (fun n => exec E n (.expr (.ref false k)) s) (counted s, v, false) := by
  refine Ends.expr ⟨0, fun n _ => ?_⟩
  dsimp only
  unfold expr
  rw [tick_ok hs, Res.ok_bind]
  have : find (counted s) k = (counted s, v) := find_look hf h
  show (let (s, r) := if false = true then findMy (counted s) k else find (counted s) k; Res.ok (s, r, false)) = _
  rw [if_neg (by simp), this]

theorem ends_nested {s : St} (hs : s.sandbox = false) {e : Node} {a : Ans}
    (h : Ends (fun n => exec E n (.expr e) (counted s)) a) : Ends (fun n => exec E n (.expr (.nested e)) s) a := by
  obtain ⟨N, hN⟩ := h
  refine Ends.expr ⟨N, fun n hn => ?_⟩
  dsimp only
  unfold expr
  rw [tick_ok hs, Res.ok_bind]
  exact hN n hn

theorem ends_msg {s s' : St} (hs : s.sandbox = false) (hf : s.flow = none) {k : Name} {r v : Nat}
    {ms : List (Name × List Node)} (hk : look s k = some r)
    (h : Ends (fun n => chain (exec E n) false r ms (counted s)) (s', v)) :
    Ends (fun n => exec E n (.expr (.msg (.ref false k) ms)) s) (s', v, false) := by
  obtain ⟨N, hN⟩ := h
  refine Ends.expr ⟨N, fun n hn => ?_⟩
  have := hN n hn
  have hl : find (counted s) k = (counted s, r) := find_look hf hk
  dsimp only at this ⊢
  unfold expr
  rw [tick_ok hs, Res.ok_bind]
  show (message (exec E n) (.ref false k) ms (counted s) >>= fun p => Res.ok (p.1, p.2, false)) = _
  unfold message
  rw [tick_ok (s := counted s) hs, Res.ok_bind]
  dsimp only
  simp only [Bool.false_eq_true, if_false, hl]
  rw [show (counted s).flow = none from hf, if_neg (by simp [realFlow]), this, Res.ok_bind]

theorem ends_msg_nested {s s1 s' : St} (hs : s.sandbox = false) {e : Node} {r v : Nat} {f : Bool}
    {ms : List (Name × List Node)} (he : Ends (fun n => exec E n (.expr (.nested e)) (counted s)) (s1, r, f))
    (h : Ends (fun n => chain (exec E n) true r ms s1) (s', v)) :
    Ends (fun n => exec E n (.expr (.msg (.nested e) ms)) s) (s', v, false) := by
  obtain ⟨N, hN⟩ := h
  obtain ⟨M, hM⟩ := he
  refine Ends.expr ⟨max N M, fun n hn => ?_⟩
  have h1 := hN n (by omega)
  have h2 := hM n (by omega)
  dsimp only at h1 h2 ⊢
  unfold expr
  rw [tick_ok hs, Res.ok_bind]
  show (message (exec E n) (.nested e) ms (counted s) >>= fun p => Res.ok (p.1, p.2, false)) = _
  unfold message
  rw [tick_ok (s := counted s) hs, Res.ok_bind]
  dsimp only
  rw [h2, Res.ok_bind]
  dsimp only
  rw [h1, Res.ok_bind]

end

/-! ## New objects -/

theorem ext_alloc (s : St) (o : Obj) : Ext (· < s.fresh) s (alloc s o).1 :=
  ⟨Nat.le_succ _, fun j hj => by
    show (if j = s.fresh then o else s.obj j) = s.obj j
    rw [if_neg (by omega)], rfl, rfl, rfl, rfl, rfl, rfl⟩

theorem alloc_obj (s : St) (o : Obj) : (alloc s o).1.obj s.fresh = o := by
  show (if s.fresh = s.fresh then o else s.obj s.fresh) = o
  rw [if_pos rfl]

theorem ext_put (s : St) (r : Nat) (o : Obj) : Ext (· ≠ r) s (s.put r o) :=
  ⟨Nat.le_refl _, fun j hj => by
    show (if j = r then o else s.obj j) = s.obj j
    rw [if_neg hj], rfl, rfl, rfl, rfl, rfl, rfl⟩

theorem put_obj (s : St) (r : Nat) (o : Obj) : (s.put r o).obj r = o := by
  show (if r = r then o else s.obj r) = o
  rw [if_pos rfl]

/-- The state with an entry in the log. -/
def logged (s : St) (e : Event) : St := { s with log := e :: s.log }

theorem ext_logged {P : Nat → Prop} (s : St) (e : Event) : Ext P s (logged s e) :=
  ⟨Nat.le_refl _, fun _ _ => rfl, rfl, rfl, rfl, rfl, rfl, rfl⟩

/-! ## The messages -/

section
variable {d : Dict} {nm : Text → Name} {un : Name → Text} {W : Names} {lm b : Nat}
  {other : Prim → (Nat → Obj) → Nat → Nat → List Nat → Res PrimOut}

theorem send_newArr {s : St} (h : Ready d nm W lm b s) (args : List Nat) : ∃ s',
    Ends (fun n => exec (env d nm un other) n (.send arrP (nm W.new) args) s) (s', s.fresh, false) ∧
    Ext (· < s.fresh) s s' ∧ s'.fresh = s.fresh + 1 ∧ s'.obj s.fresh = { val := .arr [], link := some arrP } := by
  have hne : arrP ≠ s.fresh := by have := h.world.1; have := h.low; omega
  refine ⟨(alloc (logged s (.native s.deser .newArr arrP args)) { val := .arr [], link := some arrP }).1,
    send_native h.flow h.seqNew.answers rfl ⟨0, fun n _ => rfl⟩ ?_, ?_, rfl, alloc_obj _ _⟩
  · rw [(ext_alloc _ _).obj arrP (by show arrP < s.fresh; have := h.world.1; have := h.low; omega)]
    exact h.plain.1
  · exact (ext_logged (P := fun _ => True) _ _).trans (ext_alloc _ _) (fun _ _ => trivial) (fun _ h => h)

theorem send_newPush {s : St} (h : Ready d nm W lm b s) (x : Nat) (args : List Nat) : ∃ s',
    Ends (fun n => exec (env d nm un other) n (.send arrP (nm W.arrow) (x :: args)) s) (s', s.fresh, false) ∧
    Ext (· < s.fresh) s s' ∧ s'.fresh = s.fresh + 1 ∧ s'.obj s.fresh = { val := .arr [x], link := some arrP } := by
  refine ⟨(alloc (logged s (.native s.deser .newPush arrP (x :: args))) { val := .arr [x], link := some arrP }).1,
    send_native h.flow h.seqArrow.answers rfl ⟨0, fun n _ => rfl⟩ ?_, ?_, rfl, alloc_obj _ _⟩
  · rw [(ext_alloc _ _).obj arrP (by show arrP < s.fresh; have := h.world.1; have := h.low; omega)]
    exact h.plain.1
  · exact (ext_logged (P := fun _ => True) _ _).trans (ext_alloc _ _) (fun _ _ => trivial) (fun _ h => h)

theorem send_push {s : St} (h : Ready d nm W lm b s) {r : Nat} {xs : List Nat}
    (hr : s.obj r = { val := .arr xs, link := some arrP }) (x : Nat) (args : List Nat) : ∃ s',
    Ends (fun n => exec (env d nm un other) n (.send r (nm semicolon) (x :: args)) s) (s', r, false) ∧
    Ext (· ≠ r) s s' ∧ s'.fresh = s.fresh ∧ s'.obj r = { val := .arr (xs ++ [x]), link := some arrP } := by
  refine ⟨(logged s (.native s.deser .push r (x :: args))).put r { val := .arr (xs ++ [x]), link := some arrP },
    send_native h.flow (h.seqPush.inherits (by rw [hr]) (by rw [hr])) rfl ⟨0, fun n _ => ?_⟩ ?_, ?_, rfl, put_obj _ _ _⟩
  · dsimp only
    unfold native
    show (arg (x :: args) 0 >>= fun x => match (s.obj r).val with | .arr l => _ | _ => _) = _
    rw [hr]
    rfl
  · rw [put_obj]
  · exact (ext_logged (P := fun _ => True) _ _).trans (ext_put _ _ _) (fun _ _ => trivial) (fun _ h => h)

theorem send_mapNew {s : St} (h : Ready d nm W lm b s) (args : List Nat) : ∃ s',
    Ends (fun n => exec (env d nm un other) n (.send lm (nm W.new) args) s) (s', s.fresh, false) ∧
    Ext (· < s.fresh) s s' ∧ s'.fresh = s.fresh + 1 ∧ s'.obj s.fresh = { val := .obj, link := some lm } := by
  refine ⟨(alloc (logged s (.native s.deser (.prim .mapNew) lm args)) { val := .obj, link := some lm }).1,
    send_native h.flow h.mapNew.answers rfl ⟨0, fun n _ => ?_⟩ ?_, ?_, rfl, alloc_obj _ _⟩
  · dsimp only
    unfold native
    have := h.flow
    show (Res.ok (mapNew s.obj s.fresh lm) >>= fun o => _) = _
    rw [Res.ok_bind]
    unfold mapNew alloc logged
    simp only [this]
  · rw [(ext_alloc _ _).obj lm (by show lm < s.fresh; have := h.world.2.1; have := h.low; omega)]
    exact h.plain.2
  · exact (ext_logged (P := fun _ => True) _ _).trans (ext_alloc _ _) (fun _ _ => trivial) (fun _ h => h)

theorem delp_absent {l : List (Name × Nat)} {k : Name} (h : ∀ p ∈ l, p.1 ≠ k) : delp l k = l := by
  induction l with
  | nil => rfl
  | cons p l ih =>
    obtain ⟨k', v⟩ := p
    unfold delp
    rw [if_neg (h (k', v) (by simp)), ih fun p hp => h p (by simp [hp])]

theorem selector_put : selector d [W.put, W.at] = W.put ++ d.param :: (W.at ++ [d.param]) := by
  simp [selector]

theorem send_mapPut {s : St} (h : Ready d nm W lm b s) {r : Nat} {ps : List (Name × Nat)}
    (hr : s.obj r = { val := .obj, link := some lm, props := ps }) {v k : Nat} {t : Name} (hk : (s.obj k).val = .str t)
    (hps : ∀ p ∈ ps, p.1 ≠ t) (args : List Nat) : ∃ s',
    Ends (fun n => exec (env d nm un other) n (.send r (nm (selector d [W.put, W.at])) (v :: k :: args)) s) (s', r, false) ∧
    Ext (· ≠ r) s s' ∧ s'.fresh = s.fresh ∧ s'.obj r = { val := .obj, link := some lm, props := (t, v) :: ps } := by
  rw [selector_put]
  refine ⟨(logged s (.native s.deser (.prim .mapPut) r (v :: k :: args))).put r
      { val := .obj, link := some lm, props := (t, v) :: ps },
    send_native h.flow (h.mapPut.inherits (by rw [hr]) (by rw [hr])) rfl ⟨0, fun n _ => ?_⟩ ?_, ?_, rfl, put_obj _ _ _⟩
  · dsimp only
    unfold native
    have : (env d nm un other).prim .mapPut s.obj s.fresh r (v :: k :: args) = .ok (mapPut s.obj s.fresh r v t) := by
      show (match (s.obj k).val with | .str t => _ | _ => _) = _
      rw [hk]
    show ((env d nm un other).prim .mapPut s.obj s.fresh r (v :: k :: args) >>= fun o => _) = _
    rw [this, Res.ok_bind]
    unfold mapPut St.put logged
    rw [hr, setp, delp_absent hps]
  · rw [put_obj]
  · exact (ext_logged (P := fun _ => True) _ _).trans (ext_put _ _ _) (fun _ _ => trivial) (fun _ h => h)

/-! ## Whole values -/

theorem RepPairs.keys {obj : Nat → Obj} {A : Nat → Prop} (hinj : ∀ a b, nm a = nm b → a = b) {es : List (List UInt8 × V)}
    {ps : List (Name × Nat)} (h : RepPairs nm lm obj A ps es) {k : List UInt8} (hk : ∀ e ∈ es, e.1 ≠ k) :
    ∀ p ∈ ps, p.1 ≠ nm k := by
  induction es generalizing ps with
  | nil =>
    unfold RepPairs at h
    subst h
    simp
  | cons e es ih =>
    obtain ⟨k', v⟩ := e
    unfold RepPairs at h
    obtain ⟨x, ps', rfl, _, h2⟩ := h
    intro p hp
    rcases List.mem_cons.1 hp with rfl | hp
    · exact fun he => hk (k', v) (by simp) (hinj _ _ he)
    · exact ih h2 (fun e he => hk e (by simp [he])) p hp

/-- What evaluating the tree of a value does. -/
def Makes (d : Dict) (nm : Text → Name) (W : Names) (lm b : Nat) (E : Env) (v : V) : Prop :=
  ∀ s, Ready d nm W lm b s → ∃ s' i, Ends (fun n => exec E n (.expr (lower d nm (node W v))) s) (s', i, false) ∧
    Ext (· < s.fresh) s s' ∧ Rep nm lm s'.obj (fun j => s.fresh ≤ j ∧ j < s'.fresh) i (mirror v)

/-- Adding an item. -/
theorem push_step {v : V} (hv : Makes d nm W lm b (env d nm un other) v) {s : St} (h : Ready d nm W lm b s) {r lo : Nat}
    {xs : List Nat} {acc : List V} (hr : s.obj r = { val := .arr xs, link := some arrP }) (hb : b ≤ r) (hrf : r < s.fresh)
    (hlo : lo ≤ s.fresh) (ha : RepAll nm lm s.obj (fun j => lo ≤ j ∧ j < s.fresh ∧ j ≠ r) xs acc) :
    ∃ s1 s2 x, Ends (fun n => exec (env d nm un other) n (.expr (lower d nm (node W v))) s) (s1, x, false) ∧
      Ends (fun n => exec (env d nm un other) n (.send r (nm semicolon) [x, nilO]) s1) (s2, r, false) ∧
      Ext (fun j => j < s.fresh ∧ j ≠ r) s s2 ∧ s2.obj r = { val := .arr (xs ++ [x]), link := some arrP } ∧
      RepAll nm lm s2.obj (fun j => lo ≤ j ∧ j < s2.fresh ∧ j ≠ r) (xs ++ [x]) (acc ++ [mirror v]) := by
  obtain ⟨s1, x, h1, e1, r1⟩ := hv s h
  have hb' : b ≤ s.fresh := h.low
  have hR1 : Ready d nm W lm b s1 := h.ext e1 (fun j hj => by show j < s.fresh; omega)
  have hr1 : s1.obj r = { val := .arr xs, link := some arrP } := by rw [e1.obj r hrf, hr]
  obtain ⟨s2, h2, e2, f2, o2⟩ := send_push (un := un) (other := other) hR1 hr1 x [nilO]
  have hf1 := e1.fresh
  refine ⟨s1, s2, x, h1, h2, e1.trans e2 (fun j hj => hj.1) (fun j hj => hj.2), o2, ?_⟩
  refine RepAll.snoc (RepAll.keep (fun j hj => ⟨⟨hj.1, by omega, hj.2.2⟩, ?_⟩) acc ha)
    (Rep.keep (fun j hj => ⟨⟨by omega, by omega, by omega⟩, ?_⟩) (mirror v) r1)
  · rw [e2.obj j hj.2.2, e1.obj j hj.2.1]
  · exact e2.obj j (by show j ≠ r; omega)

/-- Adding an entry. -/
theorem put_step (hinj : ∀ a b, nm a = nm b → a = b) {v : V} (hv : Makes d nm W lm b (env d nm un other) v) {s : St}
    (h : Ready d nm W lm b s) {r lo : Nat} {k : List UInt8} {ps : List (Name × Nat)} {acc : List (List UInt8 × V)}
    (hr : s.obj r = { val := .obj, link := some lm, props := ps }) (hb : b ≤ r) (hrf : r < s.fresh)
    (hlo : lo ≤ s.fresh) (ha : RepPairs nm lm s.obj (fun j => lo ≤ j ∧ j < s.fresh ∧ j ≠ r) ps acc)
    (hk : ∀ e ∈ acc, e.1 ≠ k) :
    ∃ s1 s2 ps' vs, Ends (fun n => evalArgs (exec (env d nm un other) n) 1
        [lower d nm (node W v), lower d nm (.str k)] s) (s1, vs) ∧
      Ends (fun n => exec (env d nm un other) n (.send r (nm (selector d [W.put, W.at])) (vs ++ [nilO])) s1) (s2, r, false) ∧
      Ext (fun j => j < s.fresh ∧ j ≠ r) s s2 ∧ s2.obj r = { val := .obj, link := some lm, props := ps' } ∧
      RepPairs nm lm s2.obj (fun j => lo ≤ j ∧ j < s2.fresh ∧ j ≠ r) ps' ((k, mirror v) :: acc) := by
  obtain ⟨s0, x, h0, e0, r0⟩ := hv s h
  have hb' : b ≤ s.fresh := h.low
  have hR0 : Ready d nm W lm b s0 := h.ext e0 (fun j hj => by show j < s.fresh; omega)
  have hf0 := e0.fresh
  have hs := ends_str (E := env d nm un other) hR0.sandbox (nm k)
  have e1 : Ext (· < s0.fresh) s0 (newStr (counted s0) (nm k)).1 :=
    (ext_counted (P := fun _ => True) _).trans (ext_alloc _ _) (fun _ _ => trivial) (fun _ h => h)
  have hko : (newStr (counted s0) (nm k)).1.obj s0.fresh = { val := .str (nm k), link := some strP } := alloc_obj _ _
  generalize (newStr (counted s0) (nm k)).1 = s1 at hs e1 hko
  have hf1 := e1.fresh
  have hR1 : Ready d nm W lm b s1 := hR0.ext e1 (fun j hj => by show j < s0.fresh; omega)
  have hr1 : s1.obj r = { val := .obj, link := some lm, props := ps } := by
    rw [e1.obj r (by show r < s0.fresh; omega), e0.obj r hrf, hr]
  obtain ⟨s2, h2, e2, f2, o2⟩ := send_mapPut (un := un) (other := other) hR1 hr1 (v := x) (k := s0.fresh)
    (by rw [hko]) (RepPairs.keys hinj ha hk) [nilO]
  refine ⟨s1, s2, (nm k, x) :: ps, [x, s0.fresh], args_two (by omega) h0 hs, h2, ?_, o2, ?_⟩
  · exact (e0.trans (R := (· < s.fresh)) e1 (fun j hj => hj) (fun j hj => by
      have : j < s.fresh := hj
      show j < s0.fresh
      omega)).trans e2 (fun j hj => hj.1) (fun j hj => hj.2)
  · unfold RepPairs
    refine ⟨x, ps, rfl, Rep.keep (fun j hj => ⟨⟨by omega, by omega, by omega⟩, ?_⟩) (mirror v) r0,
      RepPairs.keep (fun j hj => ⟨⟨hj.1, by omega, hj.2.2⟩, ?_⟩) acc ha⟩
    · rw [e2.obj j (by show j ≠ r; omega), e1.obj j hj.2]
    · rw [e2.obj j hj.2.2, e1.obj j (by show j < s0.fresh; omega), e0.obj j hj.2.1]

mutual
theorem run_value (hinj : ∀ a b, nm a = nm b → a = b) (v : V) (hv : Fine d v) :
    Makes d nm W lm b (env d nm un other) v := by
  intro s h
  have hlow := h.low
  match v with
  | .nil =>
    unfold node lower mirror
    refine ⟨counted s, nilO, ends_ref h.sandbox h.flow h.none, ext_counted s, ?_⟩
    unfold Rep
    rfl
  | .bool c =>
    unfold node lower mirror
    refine ⟨counted s, if c then trueO else falseO, ends_ref h.sandbox h.flow ?_, ext_counted s, ?_⟩
    · cases c
      · exact h.false
      · exact h.true
    · unfold Rep
      rfl
  | .num n =>
    unfold node lower mirror
    rw [intOf_decimal]
    refine ⟨_, _, ends_num h.sandbox n, (ext_counted (P := fun _ => True) _).trans (ext_alloc _ _) (fun _ _ => trivial)
      (fun _ h => h), ?_⟩
    unfold Rep
    exact ⟨⟨Nat.le_refl _, Nat.lt_succ_self _⟩, alloc_obj _ _⟩
  | .text t =>
    unfold node lower mirror
    refine ⟨_, _, ends_str h.sandbox _, (ext_counted (P := fun _ => True) _).trans (ext_alloc _ _) (fun _ _ => trivial)
      (fun _ h => h), ?_⟩
    unfold Rep
    exact ⟨⟨Nat.le_refl _, Nat.lt_succ_self _⟩, alloc_obj _ _⟩
  | .seq [] =>
    have hc : Ext (fun _ => True) s (counted (counted s)) := (ext_counted _).trans (ext_counted _) (fun _ h => h) (fun _ h => h)
    have hR := h.ext hc (fun _ _ => trivial)
    obtain ⟨s', h1, e1, f1, o1⟩ := send_newArr (un := un) (other := other) hR [nilO]
    refine ⟨s', s.fresh, ?_, hc.trans e1 (fun _ _ => trivial) (fun _ h => h), ?_⟩
    · simp only [node, lower, lowerMsgs]
      refine ends_nested h.sandbox (ends_msg (s := counted s) h.sandbox h.flow (r := arrP) h.seq
        (chain_cons (s := counted (counted s)) h.sandbox args_none h1 chain_nil))
    · simp only [mirror, mirrorAll, Rep, RepAll]
      exact ⟨⟨Nat.le_refl _, by rw [f1]; exact Nat.lt_succ_self _⟩, [], o1, rfl⟩
  | .seq (v :: l) =>
    simp only [Fine, FineAll] at hv
    have hc : Ext (fun _ => True) s (counted (counted s)) := (ext_counted _).trans (ext_counted _) (fun _ h => h) (fun _ h => h)
    have hR := h.ext hc (fun _ _ => trivial)
    obtain ⟨s1, x, h1, e1, r1⟩ := run_value hinj v hv.1 _ hR
    have hf1 : s.fresh ≤ s1.fresh := e1.fresh
    have hR1 := hR.ext e1 (fun j hj => by show j < s.fresh; omega)
    obtain ⟨s2, h2, e2, f2, o2⟩ := send_newPush (un := un) (other := other) hR1 x [nilO]
    have hR2 := hR1.ext e2 (fun j hj => by show j < s1.fresh; omega)
    obtain ⟨s3, xs, h3, e3, o3, r3⟩ := run_pushes hinj l hv.2 s2 s1.fresh [x] [mirror v] s.fresh hR2 o2 (by omega) (by omega)
      (by omega) (by
        unfold RepAll
        refine ⟨x, [], rfl, Rep.keep (fun j hj => ⟨⟨hj.1, by omega, by omega⟩, e2.obj j hj.2⟩) (mirror v) r1, ?_⟩
        unfold RepAll
        rfl)
    have hf3 := e3.fresh
    refine ⟨s3, s1.fresh, ?_, ?_, ?_⟩
    · simp only [node, lower, lowerMsgs]
      exact ends_nested h.sandbox (ends_msg (s := counted s) h.sandbox h.flow (r := arrP) h.seq
        (chain_cons (s := counted (counted s)) h.sandbox (args_one (by simp) h1) h2 h3))
    · refine ((hc.trans e1 (R := (· < s.fresh)) (fun _ _ => trivial) (fun _ h => h)).trans e2 (R := (· < s.fresh))
        (fun _ h => h) (fun j hj => ?_)).trans e3 (fun _ h => h) (fun j hj => ?_)
      · have : j < s.fresh := hj
        show j < s1.fresh
        omega
      · have : j < s.fresh := hj
        exact ⟨by omega, by omega⟩
    · simp only [mirror, mirrorAll, Rep]
      exact ⟨⟨hf1, by omega⟩, xs, o3, RepAll.keep (fun j hj => ⟨⟨hj.1, hj.2.1⟩, rfl⟩) _ r3⟩
  | .map [] =>
    have hc : Ext (fun _ => True) s (counted (counted (counted s))) :=
      ((ext_counted _).trans (ext_counted _) (fun _ h => h) (fun _ h => h)).trans (ext_counted _) (fun _ h => h) (fun _ h => h)
    have hR := h.ext hc (fun _ _ => trivial)
    obtain ⟨s', h1, e1, f1, o1⟩ := send_mapNew (un := un) (other := other) hR [nilO]
    refine ⟨s', s.fresh, ?_, hc.trans e1 (fun _ _ => trivial) (fun _ h => h), ?_⟩
    · simp only [node, lower, lowerMsgs]
      refine ends_nested h.sandbox (ends_nested (s := counted s) h.sandbox (ends_msg (s := counted (counted s)) h.sandbox h.flow
        (r := lm) h.list (chain_cons (s := counted (counted (counted s))) h.sandbox args_none h1 chain_nil)))
    · simp only [mirror, mirrorPairs, Rep, RepPairs]
      exact ⟨⟨Nat.le_refl _, by rw [f1]; exact Nat.lt_succ_self _⟩, [], o1, rfl⟩
  | .map ((k, v) :: es) =>
    simp only [Fine, FinePairs, List.map_cons, List.nodup_cons, List.mem_map, not_exists, not_and] at hv
    have hc : Ext (fun _ => True) s (counted (counted (counted (counted s)))) :=
      (((ext_counted _).trans (ext_counted _) (fun _ h => h) (fun _ h => h)).trans (ext_counted _) (fun _ h => h)
        (fun _ h => h)).trans (ext_counted _) (fun _ h => h) (fun _ h => h)
    have hR := h.ext hc (fun _ _ => trivial)
    obtain ⟨s1, h1, e1, f1, o1⟩ := send_mapNew (un := un) (other := other) hR [nilO]
    have f1 : s1.fresh = s.fresh + 1 := f1
    have o1 : s1.obj s.fresh = { val := .obj, link := some lm } := o1
    have hR1 := hR.ext e1 (fun j hj => by show j < s.fresh; omega)
    obtain ⟨s2, s3, ps, vs, h2, h3, e3, o3, r3⟩ := put_step hinj (run_value hinj v hv.2.2.1)
      hR1 (r := s.fresh) (lo := s.fresh) (k := k) (ps := []) (acc := []) o1 hlow (by omega) (by omega)
      (by unfold RepPairs; rfl) (by simp)
    have hf3 := e3.fresh
    have hR3 := hR1.ext e3 (fun j hj => ⟨by omega, by omega⟩)
    obtain ⟨s4, qs, h4, e4, o4, r4⟩ := run_puts hinj es hv.1.2 hv.2.2.2 s3 s.fresh ps [(k, mirror v)] s.fresh hR3 o3 hlow
      (by omega) (by omega) r3 (by
        intro e he e' he'
        rw [List.mem_singleton.1 he]
        exact fun hk => hv.1.1 e' he' hk.symm)
    have hf4 := e4.fresh
    refine ⟨s4, s.fresh, ?_, ?_, ?_⟩
    · simp only [node, lower, lowerMsgs, lowerAll] at h2 ⊢
      exact ends_nested h.sandbox (ends_msg_nested (s := counted s) h.sandbox (ends_nested (s := counted (counted s)) h.sandbox
        (ends_msg (s := counted (counted (counted s))) h.sandbox h.flow (r := lm) h.list
          (chain_cons (s := counted (counted (counted (counted s)))) h.sandbox args_none h1 chain_nil)))
        (chain_cons hR1.sandbox h2 h3 h4))
    · refine ((hc.trans e1 (R := (· < s.fresh)) (fun _ _ => trivial) (fun _ h => h)).trans e3 (R := (· < s.fresh))
        (fun _ h => h) (fun j hj => ?_)).trans e4 (fun _ h => h) (fun j hj => ?_)
      · have : j < s.fresh := hj
        exact ⟨by omega, by omega⟩
      · have : j < s.fresh := hj
        exact ⟨by omega, by omega⟩
    · simp only [mirror, mirrorPairs, Rep]
      exact ⟨⟨Nat.le_refl _, by omega⟩, qs, o4, RepPairs.keep (fun j hj => ⟨⟨hj.1, hj.2.1⟩, rfl⟩) _ r4⟩
theorem run_pushes (hinj : ∀ a b, nm a = nm b → a = b) (l : List V) (hl : FineAll d l) (s : St) (r : Nat) (xs : List Nat)
    (acc : List V) (lo : Nat) (h : Ready d nm W lm b s) (hr : s.obj r = { val := .arr xs, link := some arrP }) (hb : b ≤ r)
    (hrf : r < s.fresh) (hlo : lo ≤ s.fresh)
    (ha : RepAll nm lm s.obj (fun j => lo ≤ j ∧ j < s.fresh ∧ j ≠ r) xs acc) :
    ∃ s' xs', Ends (fun n => chain (exec (env d nm un other) n) true r (lowerMsgs d nm (pushes W l)) s) (s', r) ∧
      Ext (fun j => j < s.fresh ∧ j ≠ r) s s' ∧ s'.obj r = { val := .arr xs', link := some arrP } ∧
      RepAll nm lm s'.obj (fun j => lo ≤ j ∧ j < s'.fresh ∧ j ≠ r) xs' (acc ++ mirrorAll l) := by
  match l with
  | [] =>
    simp only [pushes, lowerMsgs, mirrorAll, List.append_nil]
    exact ⟨s, xs, chain_nil, Ext.rfl, hr, ha⟩
  | v :: l =>
    simp only [FineAll] at hl
    obtain ⟨s1, s2, x, h1, h2, e2, o2, r2⟩ := push_step (run_value hinj v hl.1) h hr hb hrf hlo ha
    have hf2 := e2.fresh
    have hlow := h.low
    have hR2 := h.ext e2 (fun j hj => ⟨by omega, by omega⟩)
    obtain ⟨s3, xs', h3, e3, o3, r3⟩ := run_pushes hinj l hl.2 s2 r (xs ++ [x]) (acc ++ [mirror v]) lo hR2 o2 hb (by omega)
      (by omega) r2
    refine ⟨s3, xs', ?_, e2.trans e3 (fun _ h => h) (fun j hj => ⟨by omega, hj.2⟩), o3, ?_⟩
    · simp only [pushes, lowerMsgs]
      exact chain_cons h.sandbox (args_one (by simp) h1) h2 h3
    · rw [mirrorAll, List.append_cons]
      exact r3
theorem run_puts (hinj : ∀ a b, nm a = nm b → a = b) (es : List (List UInt8 × V)) (hn : (es.map (·.1)).Nodup)
    (hl : FinePairs d es) (s : St) (r : Nat) (ps : List (Name × Nat)) (acc : List (List UInt8 × V)) (lo : Nat)
    (h : Ready d nm W lm b s) (hr : s.obj r = { val := .obj, link := some lm, props := ps }) (hb : b ≤ r)
    (hrf : r < s.fresh) (hlo : lo ≤ s.fresh)
    (ha : RepPairs nm lm s.obj (fun j => lo ≤ j ∧ j < s.fresh ∧ j ≠ r) ps acc) (hk : ∀ e ∈ acc, ∀ e' ∈ es, e.1 ≠ e'.1) :
    ∃ s' ps', Ends (fun n => chain (exec (env d nm un other) n) true r (lowerMsgs d nm (puts W es)) s) (s', r) ∧
      Ext (fun j => j < s.fresh ∧ j ≠ r) s s' ∧ s'.obj r = { val := .obj, link := some lm, props := ps' } ∧
      RepPairs nm lm s'.obj (fun j => lo ≤ j ∧ j < s'.fresh ∧ j ≠ r) ps' (mirrorPairs es ++ acc) := by
  match es with
  | [] =>
    simp only [puts, lowerMsgs, mirrorPairs, List.nil_append]
    exact ⟨s, ps, chain_nil, Ext.rfl, hr, ha⟩
  | (k, v) :: es =>
    simp only [FinePairs] at hl
    simp only [List.map_cons, List.nodup_cons, List.mem_map, not_exists, not_and] at hn
    obtain ⟨s1, s2, ps', vs, h1, h2, e2, o2, r2⟩ := put_step hinj (run_value hinj v hl.2.1) h hr hb
      hrf hlo ha (fun e he => hk e he (k, v) (by simp))
    have hf2 := e2.fresh
    have hlow := h.low
    have hR2 := h.ext e2 (fun j hj => ⟨by omega, by omega⟩)
    obtain ⟨s3, qs, h3, e3, o3, r3⟩ := run_puts hinj es hn.2 hl.2.2 s2 r ps' ((k, mirror v) :: acc) lo hR2 o2 hb (by omega)
      (by omega) r2 (by
        intro e he e' he'
        rcases List.mem_cons.1 he with rfl | he
        · exact fun hk => hn.1 e' he' hk.symm
        · exact hk e he e' (by simp [he']))
    refine ⟨s3, qs, ?_, e2.trans e3 (fun _ h => h) (fun j hj => ⟨by omega, hj.2⟩), o3, ?_⟩
    · simp only [puts, lowerMsgs, lowerAll]
      exact chain_cons h.sandbox h1 h2 h3
    · rw [mirrorPairs, List.append_assoc]
      exact r3
end

end

end Verif.Model.ReadBack
