import Verif.Lemmas.InterpScope
import Verif.Lemmas.InterpBoot
import Verif.Lemmas.Float
import Verif.Model.Program

/-!
# Lemmas: plain values and scopes in the heap of the interpreter
-/

namespace Verif.Model.Program
open Verif.Model.Interp
open Verif.Spec.Program (Words V Frame Sig upd lookup assign declare)

/-- A prototype knows a built-in operation under a name. -/
def Knows (s : St) (p : Nat) (k : Name) (g : Native) : Prop :=
  ∃ f, getp (s.obj p).meths k = some f ∧ f < s.fresh ∧ f ≠ worldO ∧ (s.obj f).val = .nat g

variable (I : List UInt8 → Name) (W : Words)

/-- The value `v` is the object at `o`. -/
def Holds (s : St) (o : Nat) : V → Prop
  | .num z => o < s.fresh ∧ s.obj o = { val := .num z, link := some numP }
  | .bool b => o = if b then trueO else falseO
  | .code ps b => o < s.fresh ∧ s.obj o = { val := .code (ps.map I) (lowerAll I W b), link := some codeP }
  | .other => True

/-- The variables of a scope. -/
def Binds (s : St) (c : Nat) (f : Frame) : Prop :=
  ∀ k, match f k with
    | none => getp (s.obj c).props (I k) = none
    | some v => ∃ o, getp (s.obj c).props (I k) = some o ∧ Holds I W s o v

/-- The scopes, `s0` being the state at the start. -/
def Scopes (s0 s : St) : List Nat → List Frame → Prop
  | [], [] => True
  | c :: cs, f :: fs => (c < s.fresh ∧ (s.obj c).val = .obj ∧ (c = worldO ∨ s0.fresh ≤ c)) ∧ Binds I W s c f ∧ c ∉ cs ∧ Scopes s0 s cs fs
  | _, _ => False

/-- A world in which numbers, Booleans and blocks know their messages (`world.c:640-1040`), nothing has been executed yet. -/
structure World (s : St) : Prop where
  flow : s.flow = none
  sandbox : s.sandbox = false
  deser : s.deser = false
  stack : s.stack = []
  recursion : s.recursion = none
  ctxs : s.ctxs = [worldO]
  size : 13 ≤ s.fresh
  world : (s.obj worldO).val = .obj
  yes : s.obj trueO = { val := .bool true, link := some boolP }
  no : s.obj falseO = { val := .bool false, link := some boolP }
  numbers : ∀ p ∈ numOps W, Knows s numP (I p.1) p.2
  booleans : ∀ p ∈ boolOps W, Knows s boolP (I p.1) p.2
  blocks : ∀ p ∈ codeOps W, Knows s codeP (I p.1) p.2
  globals : Binds I W s worldO (Spec.Program.globals W)

/-- The state `s` of a run that started with `s0`, with the scopes `fs`. -/
structure Rep (s0 s : St) (fs : List Frame) : Prop where
  sandbox : s.sandbox = false
  deser : s.deser = false
  stack : s.stack = []
  recursion : s.recursion = none
  fresh : s0.fresh ≤ s.fresh
  low : ∀ i < s0.fresh, i ≠ worldO → s.obj i = s0.obj i
  bottom : s.ctxs.getLast? = some worldO
  scopes : Scopes I W s0 s s.ctxs fs

/-- Numbers, blocks and Booleans stay as they are. -/
def Ext (s s' : St) : Prop := s.fresh ≤ s'.fresh ∧ ∀ i < s.fresh, (s.obj i).val ≠ .obj → s'.obj i = s.obj i

theorem Ext.refl (s : St) : Ext s s := ⟨Nat.le_refl _, fun _ _ _ => rfl⟩

theorem Ext.trans {a b c : St} (h : Ext a b) (k : Ext b c) : Ext a c :=
  ⟨Nat.le_trans h.1 k.1, fun i hi hv => by
    have e := h.2 i hi hv
    rw [k.2 i (Nat.lt_of_lt_of_le hi h.1) (by rw [e]; exact hv), e]⟩

variable {I W}

theorem Holds.ext {s s' : St} {o : Nat} {v : V} (h : Holds I W s o v) (e : Ext s s') : Holds I W s' o v := by
  cases v with
  | num z => exact ⟨Nat.lt_of_lt_of_le h.1 e.1, by rw [e.2 o h.1 (by rw [h.2]; exact fun h => nomatch h)]; exact h.2⟩
  | bool b => exact h
  | code ps b => exact ⟨Nat.lt_of_lt_of_le h.1 e.1, by rw [e.2 o h.1 (by rw [h.2]; exact fun h => nomatch h)]; exact h.2⟩
  | other => trivial

/-- The value does not depend on anything but the objects. -/
theorem Binds.of_eq {s s' : St} {c : Nat} {f : Frame} (h : Binds I W s c f) (e : Ext s s')
    (hp : (s'.obj c).props = (s.obj c).props) : Binds I W s' c f := by
  intro k
  have hk := h k
  rw [hp]
  cases hf : f k with
  | none => rw [hf] at hk; exact hk
  | some v =>
    rw [hf] at hk
    obtain ⟨o, h1, h2⟩ := hk
    exact ⟨o, h1, h2.ext e⟩

theorem Scopes.of_eq {s0 s s' : St} : ∀ {cs : List Nat} {fs : List Frame}, Scopes I W s0 s cs fs → Ext s s' →
    (∀ c ∈ cs, s'.obj c = s.obj c) → Scopes I W s0 s' cs fs
  | [], [], _, _, _ => trivial
  | c :: cs, f :: fs, ⟨⟨h1, h2, h3⟩, h4, h5, h6⟩, e, hc =>
    ⟨⟨Nat.lt_of_lt_of_le h1 e.1, by rw [hc c (by simp)]; exact h2, h3⟩,
      h4.of_eq e (by rw [hc c (by simp)]), h5, h6.of_eq e fun c h => hc c (by simp [h])⟩
  | [], _ :: _, h, _, _ => h.elim
  | _ :: _, [], h, _, _ => h.elim

theorem Scopes.lt {s0 s : St} : ∀ {cs : List Nat} {fs : List Frame}, Scopes I W s0 s cs fs → ∀ c ∈ cs, c < s.fresh
  | _ :: _, _ :: _, h, d, hd => by
    rcases List.mem_cons.1 hd with rfl | hd
    · exact h.1.1
    · exact h.2.2.2.lt d hd
  | [], _ :: _, h, _, _ => h.elim
  | _ :: _, [], h, _, _ => h.elim

theorem Scopes.length {s0 s : St} : ∀ {cs : List Nat} {fs : List Frame}, Scopes I W s0 s cs fs → cs.length = fs.length
  | [], [], _ => rfl
  | _ :: _, _ :: _, h => congrArg (· + 1) h.2.2.2.length
  | [], _ :: _, h => h.elim
  | _ :: _, [], h => h.elim

/-- Only objects that did not exist before are different. -/
structure Quiet (s s' : St) : Prop where
  sandbox : s'.sandbox = s.sandbox
  deser : s'.deser = s.deser
  stack : s'.stack = s.stack
  recursion : s'.recursion = s.recursion
  ctxs : s'.ctxs = s.ctxs
  flow : s'.flow = s.flow
  fresh : s.fresh ≤ s'.fresh
  obj : ∀ i < s.fresh, s'.obj i = s.obj i

theorem Quiet.refl (s : St) : Quiet s s := ⟨rfl, rfl, rfl, rfl, rfl, rfl, Nat.le_refl _, fun _ _ => rfl⟩

theorem Quiet.trans {a b c : St} (h : Quiet a b) (k : Quiet b c) : Quiet a c :=
  ⟨k.1.trans h.1, k.2.trans h.2, k.3.trans h.3, k.4.trans h.4, k.5.trans h.5, k.6.trans h.6, Nat.le_trans h.7 k.7,
    fun i hi => (k.8 i (Nat.lt_of_lt_of_le hi h.7)).trans (h.8 i hi)⟩

theorem Quiet.ext {s s' : St} (h : Quiet s s') : Ext s s' := ⟨h.fresh, fun i hi _ => h.obj i hi⟩

theorem Rep.quiet {s0 s s' : St} {fs : List Frame} (h : Rep I W s0 s fs) (q : Quiet s s') : Rep I W s0 s' fs where
  sandbox := q.sandbox.trans h.sandbox
  deser := q.deser.trans h.deser
  stack := q.stack.trans h.stack
  recursion := q.recursion.trans h.recursion
  fresh := Nat.le_trans h.fresh q.fresh
  low i hi hw := (q.obj i (Nat.lt_of_lt_of_le hi h.fresh)).trans (h.low i hi hw)
  bottom := by rw [q.ctxs]; exact h.bottom
  scopes := by
    rw [q.ctxs]
    exact h.scopes.of_eq q.ext fun c hc => q.obj c (h.scopes.lt c hc)

theorem quiet_alloc (s : St) (o : Obj) : Quiet s (alloc s o).1 :=
  ⟨rfl, rfl, rfl, rfl, rfl, rfl, Nat.le_succ _, fun i hi => by
    show (if i = s.fresh then o else s.obj i) = _
    rw [if_neg (by omega)]⟩

/-- A new number. -/
theorem holds_newNum (s : St) (z : Int) : Holds I W (newNum s z).1 (newNum s z).2 (.num z) :=
  ⟨Nat.lt_succ_self _, if_pos rfl⟩

/-- A new block. -/
theorem holds_newCode (s : St) (ps : List (List UInt8)) (b : List Spec.Node) :
    Holds I W (newCode s (ps.map I) (lowerAll I W b)).1 (newCode s (ps.map I) (lowerAll I W b)).2 (.code ps b) :=
  ⟨Nat.lt_succ_self _, if_pos rfl⟩

/-! ### Variables -/

theorem scopes_find {s0 s : St} {k : List UInt8} {v : V} : ∀ {cs : List Nat} {fs : List Frame}, Scopes I W s0 s cs fs →
    lookup fs k = some v → ∃ o, findIn s.obj cs (I k) = some o ∧ Holds I W s o v
  | c :: cs, f :: fs, h, hl => by
    have hk := h.2.1 k
    simp only [lookup] at hl
    simp only [findIn]
    cases hf : f k with
    | none =>
      rw [hf] at hk hl
      rw [hk]
      exact scopes_find h.2.2.2 hl
    | some w =>
      rw [hf] at hk hl
      obtain rfl := Option.some.inj hl
      obtain ⟨o, h1, h2⟩ := hk
      exact ⟨o, by rw [h1], h2⟩
  | [], [], _, hl => nomatch hl
  | [], _ :: _, h, _ => h.elim
  | _ :: _, [], h, _ => h.elim

theorem Rep.find {s0 s : St} {fs : List Frame} (h : Rep I W s0 s fs) (hf : s.flow = none) {k : List UInt8} {v : V}
    (hl : lookup fs k = some v) : ∃ o, Interp.find s (I k) = (s, o) ∧ Holds I W s o v := by
  obtain ⟨o, h1, h2⟩ := scopes_find h.scopes hl
  exact ⟨o, by simp only [Interp.find, hf, Option.isSome_none, Bool.false_eq_true, if_false, h1], h2⟩

theorem ext_setProp (s : St) {c : Nat} (hc : (s.obj c).val = .obj) (k : Name) (v : Nat) : Ext s (setProp s c k v) :=
  ⟨Nat.le_refl _, fun i _ hv => by
    show (if i = c then _ else s.obj i) = _
    rw [if_neg (by rintro rfl; exact hv hc)]⟩

theorem binds_setProp (hI : Function.Injective I) {s : St} {c : Nat} {f : Frame} (hc : (s.obj c).val = .obj)
    (h : Binds I W s c f) {k : List UInt8} {o : Nat} {v : V} (hv : Holds I W s o v) :
    Binds I W (setProp s c (I k) o) c (upd f k v) := by
  intro k'
  have hk := h k'
  have hp : ((setProp s c (I k) o).obj c).props = setp (s.obj c).props (I k) o := by
    show (if c = c then _ else s.obj c : Obj).props = _
    rw [if_pos rfl]
  have e := ext_setProp s hc (I k) o
  rw [hp, getp_setp]
  unfold upd
  by_cases hkk : k' = k
  · subst hkk
    rw [if_pos rfl]
    exact ⟨o, by rw [if_pos rfl], hv.ext e⟩
  · rw [if_neg hkk, if_neg (fun h => hkk (hI h))]
    cases hf : f k' with
    | none => rw [hf] at hk; exact hk
    | some w =>
      rw [hf] at hk
      obtain ⟨o', h1, h2⟩ := hk
      exact ⟨o', h1, h2.ext e⟩

theorem setProp_other (s : St) (c d : Nat) (k : Name) (v : Nat) (h : d ≠ c) : (setProp s c k v).obj d = s.obj d := by
  show (if d = c then _ else s.obj d) = _
  rw [if_neg h]

theorem val_setProp (s : St) (c d : Nat) (k : Name) (v : Nat) : ((setProp s c k v).obj d).val = (s.obj d).val := by
  show (if d = c then _ else s.obj d : Obj).val = _
  by_cases h : d = c
  · rw [if_pos h, h]
  · rw [if_neg h]

theorem low_setProp {s0 s : St} {c : Nat} (hc : c = worldO ∨ s0.fresh ≤ c) (k : Name) (v : Nat)
    (h : ∀ i < s0.fresh, i ≠ worldO → s.obj i = s0.obj i) :
    ∀ i < s0.fresh, i ≠ worldO → (setProp s c k v).obj i = s0.obj i := fun i hi hw => by
  rw [setProp_other _ _ _ _ _ (by rintro rfl; rcases hc with hc | hc; exact hw hc; omega)]
  exact h i hi hw

/-- A new variable in the innermost scope. -/
theorem Rep.declare (hI : Function.Injective I) {s0 s : St} {fs fs' : List Frame} (h : Rep I W s0 s fs) (hf : s.flow = none)
    {k : List UInt8} {o : Nat} {v : V} (hv : Holds I W s o v) (hd : declare fs k v = some fs') :
    ∃ s', assignLocal s (I k) o = (s', o) ∧ Rep I W s0 s' fs' ∧ Ext s s' ∧ s'.flow = none ∧ s'.ctxs = s.ctxs := by
  cases fs with
  | nil => cases hd
  | cons f fs =>
    obtain rfl := Option.some.inj hd
    have hs := h.scopes
    cases hc : s.ctxs with
    | nil => rw [hc] at hs; exact hs.elim
    | cons c cs =>
      rw [hc] at hs
      obtain ⟨⟨h1, h2, h3⟩, h4, h5, h6⟩ := hs
      have e := ext_setProp s h2 (I k) o
      refine ⟨setProp s c (I k) o, ?_, ⟨h.1, h.2, h.3, h.4, h.5, low_setProp h3 _ _ h.low, h.7, ?_⟩, e, hf, hc⟩
      · simp only [assignLocal, hf, Option.isSome_none, Bool.false_eq_true, if_false, hc]
      · show Scopes I W s0 _ s.ctxs _
        rw [hc]
        refine ⟨⟨h1, by rw [val_setProp]; exact h2, h3⟩, binds_setProp hI h2 h4 hv, h5, h6.of_eq e fun d hd => ?_⟩
        exact setProp_other _ _ _ _ _ (by rintro rfl; exact h5 hd)

theorem scopes_assign (hI : Function.Injective I) {s0 s : St} {k : List UInt8} {o : Nat} {v : V} (hv : Holds I W s o v) :
    ∀ {cs : List Nat} {fs fs' : List Frame}, Scopes I W s0 s cs fs → assign fs k v = some fs' →
    ∃ c, ownerOf s.obj cs (I k) = some c ∧ c ∈ cs ∧ (s.obj c).val = .obj ∧ (c = worldO ∨ s0.fresh ≤ c) ∧
      Scopes I W s0 (setProp s c (I k) o) cs fs'
  | c :: cs, f :: fs, fs', ⟨⟨h1, h2, h3⟩, h4, h5, h6⟩, ha => by
    have hk := h4 k
    simp only [assign] at ha
    simp only [ownerOf]
    cases hf : f k with
    | none =>
      rw [hf] at hk ha
      obtain ⟨gs, ha', rfl⟩ := Option.map_eq_some_iff.1 (show (assign fs k v).map (f :: ·) = some fs' from ha)
      obtain ⟨c', i1, i2, i3, i4, i5⟩ := scopes_assign hI hv h6 ha'
      have hne : c ≠ c' := by rintro rfl; exact h5 i2
      refine ⟨c', by rw [hk]; exact i1, by simp [i2], i3, i4, ⟨h1, by rw [val_setProp]; exact h2, h3⟩, ?_, h5, i5⟩
      exact h4.of_eq (ext_setProp s i3 _ _) (by rw [setProp_other _ _ _ _ _ hne])
    | some w =>
      rw [hf] at hk ha
      obtain rfl := Option.some.inj ha
      obtain ⟨o', h7, h8⟩ := hk
      refine ⟨c, by rw [h7]; rfl, by simp, h2, h3, ⟨h1, by rw [val_setProp]; exact h2, h3⟩, binds_setProp hI h2 h4 hv, h5,
        h6.of_eq (ext_setProp s h2 _ _) fun d hd => setProp_other _ _ _ _ _ (by rintro rfl; exact h5 hd)⟩
  | [], [], _, _, ha => nomatch ha
  | [], _ :: _, _, h, _ => h.elim
  | _ :: _, [], _, h, _ => h.elim

/-- Assignment to a variable. -/
theorem Rep.assign (hI : Function.Injective I) {s0 s : St} {fs fs' : List Frame} (h : Rep I W s0 s fs) (hf : s.flow = none)
    {k : List UInt8} {o : Nat} {v : V} (hv : Holds I W s o v) (hd : assign fs k v = some fs') :
    ∃ s', assignVar s (I k) o = (s', o) ∧ Rep I W s0 s' fs' ∧ Ext s s' ∧ s'.flow = none := by
  obtain ⟨c, h1, _, h3, h4, h5⟩ := scopes_assign hI hv h.scopes hd
  refine ⟨setProp s c (I k) o, ?_, ⟨h.1, h.2, h.3, h.4, h.5, low_setProp h4 _ _ h.low, h.7, h5⟩, ext_setProp s h3 _ _, hf⟩
  simp only [assignVar, hf, Option.isSome_none, Bool.false_eq_true, if_false, h1]

/-! ### Blocks -/

/-- A new scope. -/
theorem Rep.open {s0 s : St} {fs : List Frame} (h : Rep I W s0 s fs) (hl : fs.length < 300) :
    ∃ s', openCtx s = .ok s' ∧ Rep I W s0 s' ((fun _ => none) :: fs) ∧ Ext s s' ∧ s'.flow = s.flow ∧
      ∃ c, s'.ctxs = c :: s.ctxs := by
  have hn := h.scopes.length
  have q := quiet_alloc s { val := .obj, link := some objectP }
  refine ⟨{ (alloc s { val := .obj, link := some objectP }).1 with ctxs := s.fresh :: s.ctxs }, ?_, ?_, q.ext, rfl, _, rfl⟩
  · unfold openCtx
    rw [if_neg (by omega), if_neg (by omega)]
    rfl
  · have hq := h.quiet q
    refine ⟨hq.1, hq.2, hq.3, hq.4, hq.5, hq.6, ?_, ⟨Nat.lt_succ_self _, ?_, .inr h.fresh⟩, ?_, ?_, ?_⟩
    · show (s.fresh :: s.ctxs).getLast? = _
      rw [List.getLast?_cons, h.bottom]; rfl
    · show (if s.fresh = s.fresh then _ else s.obj _ : Obj).val = _
      rw [if_pos rfl]
    · intro k
      show getp (if s.fresh = s.fresh then _ else s.obj _ : Obj).props _ = none
      rw [if_pos rfl]
      rfl
    · intro hm
      exact Nat.lt_irrefl _ (h.scopes.lt _ hm)
    · exact hq.scopes.of_eq ⟨Nat.le_refl _, fun _ _ _ => rfl⟩ fun _ _ => rfl

/-- The end of a scope. -/
theorem Rep.close {s0 s : St} {f f' : Frame} {fs : List Frame} (h : Rep I W s0 s (f :: f' :: fs)) :
    Rep I W s0 (closeCtx s) (f' :: fs) ∧ Ext s (closeCtx s) ∧ (closeCtx s).flow = s.flow := by
  have hs := h.scopes
  unfold closeCtx
  cases hc : s.ctxs with
  | nil => rw [hc] at hs; exact hs.elim
  | cons c cs =>
    rw [hc] at hs
    cases cs with
    | nil => exact hs.2.2.2.elim
    | cons d cs =>
      exact ⟨⟨h.1, h.2, h.3, h.4, h.5, h.6, by have := h.bottom; rw [hc] at this; exact this, hs.2.2.2.of_eq ⟨Nat.le_refl _, fun _ _ _ => rfl⟩ fun _ _ => rfl⟩,
        ⟨Nat.le_refl _, fun _ _ _ => rfl⟩, rfl⟩

end Verif.Model.Program
