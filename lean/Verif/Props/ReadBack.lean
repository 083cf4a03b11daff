import Verif.Lemmas.ReadBackEval
import Verif.Lemmas.ReadBackView
import Verif.Props.Nest

/-!
# C75: reading the text of a value back
-/

namespace Verif.Props.ReadBack
open Verif
open Verif.Spec (Dict english)
open Verif.Spec.ReadBack
open Verif.Model (Text)
open Verif.Model.ReadBack
open Verif.Model.Interp
open Verif.Model.Nest (codeOf)

/-- **C75** for values made of Nil, Booleans, whole numbers without a unit, texts without quotes that survive being written
down (C32), sequences and lists, in a language whose words fit together: let `i` be such a value, nested at most 99 deep, in
a state in which the words for values have their meaning. Then `code` gives a text without an error. The message `object` to
a text object with that text ends, raises no error, leaves all old objects and the scopes as they were, and answers a value
that is the same as the old one except that lists have their entries in the opposite order; apart from Nil and the Booleans
it shares no object with the old one. -/
theorem C75_partial (d : Dict) (W : Names) (nm : Text → Name) (un : Name → Text)
    (other : Prim → (Nat → Obj) → Nat → Nat → List Nat → Res PrimOut) (lm b : Nat) (hf : Fits d W)
    (hun : ∀ t, un (nm t) = t) (v : V) (hv : Fine d v) (hs : Shallow 99 99 v) (s : St) (hr : Ready d nm W lm b s) (i : Nat)
    (hi : Rep nm lm s.obj (fun j => falseO < j ∧ j < s.fresh) i v) :
    ∃ t, (∃ c, codeOf (wordsOf d W) (view d un W lm s.obj) 201 i Model.Nest.init = some (t, c) ∧ c.flow = false) ∧
      ∀ x args, (s.obj x).val = .str (nm t) → ∃ s' j,
        (∃ N, ∀ n, N ≤ n → native (env d nm un other) (exec (env d nm un other) n) .eval x args s = .ok (s', j)) ∧
        Rep nm lm s'.obj (fun j => s.fresh ≤ j ∧ j < s'.fresh) j (mirror v) ∧
        (∀ k < s.fresh, s'.obj k = s.obj k) ∧ s'.ctxs = s.ctxs ∧ s'.stack = s.stack ∧ s'.flow = none ∧ s'.deser = false ∧
        Ready d nm W lm b s' := by
  have hst := rep_stands hf hun (fun j hj => hj.1) v hv hi
  have hw := stands_within v hs hst
  obtain ⟨t, h1, h2⟩ := (Props.Nest.does (wordsOf d W) _ i (s := Model.Nest.init) rfl).1 hw
  have ht := shows_text hf v hv hst h2
  refine ⟨t, ⟨_, h1, rfl⟩, fun x args hx => ?_⟩
  have hc : Ext (fun _ => True) { s with deser := true } { s with deser := true } := Ext.rfl
  have hr' : Ready d nm W lm b { s with deser := true } :=
    ⟨hr.flow, hr.sandbox, hr.low, hr.world, hr.seq, hr.list, hr.none, hr.true, hr.false, hr.plain, hr.seqNew, hr.seqArrow,
      hr.seqPush, hr.mapNew, hr.mapPut⟩
  have hinj : ∀ a b, nm a = nm b → a = b := fun a b h => by rw [← hun a, h, hun]
  obtain ⟨s', j, ⟨N, hN⟩, he, hj⟩ := run_value (un := un) (other := other) hinj v hv _ hr'
  have hr1 := hr'.ext he (fun k hk => by show k < s.fresh; have := hr.low; omega)
  refine ⟨{ s' with deser := false }, j, ⟨N, fun n hn => ?_⟩, hj, he.obj, he.ctxs, he.stack, he.flow.trans hr.flow, rfl,
    hr1.flow, hr1.sandbox, hr1.low, hr1.world, hr1.seq, hr1.list, hr1.none, hr1.true, hr1.false, hr1.plain, hr1.seqNew,
    hr1.seqArrow, hr1.seqPush, hr1.mapNew, hr1.mapPut⟩
  have hN' := hN n hn
  dsimp only at hN'
  have hp : (env d nm un other).parse (nm t) = some (lower d nm (node W v)) := by
    show (readTree d (un (nm t))).map (lower d nm) = _
    rw [hun, ht, readTree_textOf hf v hv]
    rfl
  unfold native
  dsimp only
  rw [hx]
  dsimp only
  rw [hp]
  dsimp only
  rw [hN', Res.ok_bind]

/-! ## The opposite order -/

mutual
theorem mirror_mirror (v : V) : mirror (mirror v) = v := by
  match v with
  | .nil => rfl
  | .bool b => rfl
  | .num n => rfl
  | .text t => rfl
  | .seq l => simp only [mirror]; rw [mirror_mirrorAll l]
  | .map es => simp only [mirror]; rw [mirror_mirrorPairs es]
theorem mirror_mirrorAll (l : List V) : mirrorAll (mirrorAll l) = l := by
  match l with
  | [] => rfl
  | v :: l => simp only [mirrorAll]; rw [mirror_mirror v, mirror_mirrorAll l]
theorem mirror_mirrorPairs (es : List (List UInt8 × V)) : mirrorPairs (mirrorPairs es) = es := by
  match es with
  | [] => rfl
  | (k, v) :: es =>
    rw [mirrorPairs, mirrorPairs_append, mirror_mirrorPairs es]
    simp only [mirrorPairs, List.nil_append, List.cons_append]
    rw [mirror_mirror v]
theorem mirrorPairs_append (es fs : List (List UInt8 × V)) : mirrorPairs (es ++ fs) = mirrorPairs fs ++ mirrorPairs es := by
  match es with
  | [] => simp [mirrorPairs]
  | (k, v) :: es =>
    rw [List.cons_append, mirrorPairs, mirrorPairs, mirrorPairs_append es fs, List.append_assoc]
end

/-- **C75**, the order: reading the text of a value that was read back gives the order of the first value again. -/
theorem C75_twice (v : V) : mirror (mirror v) = v := mirror_mirror v

theorem lookup_append (es fs : List (List UInt8 × V)) (k : List UInt8) :
    lookup (es ++ fs) k = (lookup es k).or (lookup fs k) := by
  unfold lookup
  rw [List.find?_append]
  cases es.find? (·.1 = k) <;> simp

/-- **C75**, the entries: a list that was read back has under every key what the old list has (read back in its turn). -/
theorem C75_lookup (es : List (List UInt8 × V)) (h : (es.map (·.1)).Nodup) (k : List UInt8) :
    lookup (mirrorPairs es) k = (lookup es k).map mirror := by
  induction es with
  | nil => rfl
  | cons e es ih =>
    obtain ⟨k', v⟩ := e
    simp only [List.map_cons, List.nodup_cons] at h
    rw [mirrorPairs, lookup_append, ih h.2]
    by_cases hk : k' = k
    · subst hk
      have : lookup es k' = none := by
        unfold lookup
        rw [Option.map_eq_none_iff, List.find?_eq_none]
        intro e he
        simp only [decide_eq_true_eq]
        intro hek
        exact h.1 (hek ▸ List.mem_map_of_mem he)
      rw [this]
      simp [lookup]
    · simp [lookup, hk]

example : ([([97], V.nil), ([98], V.num 1)].map (·.1)).Nodup := by decide

/-! ## The English language -/

/-- The English words, `i18n/en/dictionary.h:1-16`, `33`, `37`, `101`. -/
def englishNames : Names where
  seq := [83, 101, 113, 117, 101, 110, 99, 101]
  new := [110, 101, 119]
  arrow := [226, 134, 144]
  list := [76, 105, 115, 116]
  put := [112, 117, 116]
  «at» := [97, 116]
  none := [78, 111, 110, 101]
  true := [84, 114, 117, 101]
  false := [70, 97, 108, 115, 101]
  gap1 := [32]
  gap2 := [32]

theorem english_fits : Fits english englishNames := by
  refine ⟨?_, ?_, ?_, ?_, ?_, ?_, ?_, ?_⟩
  · unfold Spec.Parser.GoodDict; decide +kernel
  · unfold Clear; decide +kernel
  · intro w hw
    simp only [List.mem_cons, List.not_mem_nil, or_false] at hw
    rcases hw with rfl | rfl | rfl | rfl | rfl | rfl | rfl | rfl | rfl | rfl
    · exact ⟨by decide, by decide, ⟨['S', 'e', 'q', 'u', 'e', 'n', 'c', 'e'], by decide +kernel⟩, by decide +kernel, by decide +kernel, by decide +kernel, by decide +kernel, by decide +kernel⟩
    · exact ⟨by decide, by decide, ⟨['n', 'e', 'w'], by decide +kernel⟩, by decide +kernel, by decide +kernel, by decide +kernel, by decide +kernel, by decide +kernel⟩
    · exact ⟨by decide, by decide, ⟨['←'], by decide +kernel⟩, by decide +kernel, by decide +kernel, by decide +kernel, by decide +kernel, by decide +kernel⟩
    · exact ⟨by decide, by decide, ⟨['L', 'i', 's', 't'], by decide +kernel⟩, by decide +kernel, by decide +kernel, by decide +kernel, by decide +kernel, by decide +kernel⟩
    · exact ⟨by decide, by decide, ⟨['p', 'u', 't'], by decide +kernel⟩, by decide +kernel, by decide +kernel, by decide +kernel, by decide +kernel, by decide +kernel⟩
    · exact ⟨by decide, by decide, ⟨['a', 't'], by decide +kernel⟩, by decide +kernel, by decide +kernel, by decide +kernel, by decide +kernel, by decide +kernel⟩
    · exact ⟨by decide, by decide, ⟨['N', 'o', 'n', 'e'], by decide +kernel⟩, by decide +kernel, by decide +kernel, by decide +kernel, by decide +kernel, by decide +kernel⟩
    · exact ⟨by decide, by decide, ⟨['T', 'r', 'u', 'e'], by decide +kernel⟩, by decide +kernel, by decide +kernel, by decide +kernel, by decide +kernel, by decide +kernel⟩
    · exact ⟨by decide, by decide, ⟨['F', 'a', 'l', 's', 'e'], by decide +kernel⟩, by decide +kernel, by decide +kernel, by decide +kernel, by decide +kernel, by decide +kernel⟩
    · exact ⟨by decide, by decide, ⟨[';'], by decide +kernel⟩, by decide +kernel, by decide +kernel, by decide +kernel, by decide +kernel, by decide +kernel⟩
  · decide +kernel
  · decide +kernel
  · decide +kernel
  · decide +kernel
  · decide +kernel

/-! ## A small world -/

/-- Texts as numbers. -/
def number (t : Text) : Nat := t.foldl (fun a c => a * 256 + c.toNat) 1

/-- Reads a number as a text, from the last byte on. -/
def bytes : Nat → Nat → Text → Text
  | 0, _, acc => acc
  | f + 1, n, acc => if n ≤ 1 then acc else bytes f (n / 256) (UInt8.ofNat (n % 256) :: acc)

/-- A numbering of texts that stays clear of the names the interpreter has numbers for. -/
def nm (t : Text) : Name := 100 + number t

/-- The text with a number. -/
def un (k : Name) : Text := bytes (k - 100) (k - 100) []

theorem number_pos (t : Text) : ∀ a, 1 ≤ a → t.length + a ≤ t.foldl (fun a c => a * 256 + c.toNat) a := by
  induction t with
  | nil => intro a ha; simp
  | cons c t ih =>
    intro a ha
    have := ih (a * 256 + c.toNat) (by omega)
    simp only [List.length_cons, List.foldl_cons]
    omega

theorem bytes_reverse (u : Text) : ∀ f acc, u.length ≤ f → bytes f (number u.reverse) acc = u.reverse ++ acc := by
  induction u with
  | nil =>
    intro f acc _
    cases f <;> rfl
  | cons c t ih =>
    intro f acc hf
    rw [List.length_cons] at hf
    obtain ⟨f, rfl⟩ : ∃ g, f = g + 1 := ⟨f - 1, by omega⟩
    have hn : number (c :: t).reverse = number t.reverse * 256 + c.toNat := by
      rw [List.reverse_cons]
      unfold number
      rw [List.foldl_append]
      rfl
    have hp : t.reverse.length + 1 ≤ number t.reverse := number_pos t.reverse 1 (by omega)
    have hc : c.toNat < 256 := c.toNat_lt
    generalize number t.reverse = k at hn hp ih
    have hk : 1 ≤ k := by omega
    unfold bytes
    rw [hn, if_neg (by omega), show (k * 256 + c.toNat) / 256 = k by omega,
      show (k * 256 + c.toNat) % 256 = c.toNat by omega, ih f _ (by omega)]
    simp

theorem un_nm (t : Text) : un (nm t) = t := by
  have hp : t.length + 1 ≤ number t := number_pos t 1 (by omega)
  have := bytes_reverse t.reverse (number t) [] (by rw [List.length_reverse]; omega)
  rw [List.reverse_reverse] at this
  unfold un nm
  rw [show 100 + number t - 100 = number t from Nat.add_sub_cancel_left _ _, this, List.append_nil]

/-- The objects at the start of a program, as far as they are needed here; from 30 on the values of a program. -/
def objects (d : Dict) (W : Names) (values : List Obj) (i : Nat) : Obj :=
  if i = 0 then { val := .nil, link := some objectP }
  else if i = 1 then { val := .bool true, link := some objectP }
  else if i = 2 then { val := .bool false, link := some objectP }
  else if i = 3 then { val := .obj, link := some objectP, props := [(nm W.seq, 8), (nm W.list, 20), (nm W.none, 0), (nm W.true, 1), (nm W.false, 2)] }
  else if i = 4 then { val := .obj, meths := [(nRespond, 26), (nRespondAnd, 26), (nRespondAndAnd, 26)] }
  else if i = 6 then { val := .obj, link := some objectP }
  else if i = 7 then { val := .obj, link := some objectP }
  else if i = 8 then { val := .obj, link := some objectP, meths := [(nm W.new, 21), (nm W.arrow, 22), (nm semicolon, 23)] }
  else if i = 20 then { val := .obj, link := some objectP, meths := [(nm W.new, 24), (nm (W.put ++ d.param :: (W.at ++ [d.param])), 25)] }
  else if i = 21 then { val := .nat .newArr }
  else if i = 22 then { val := .nat .newPush }
  else if i = 23 then { val := .nat .push }
  else if i = 24 then { val := .nat (.prim .mapNew) }
  else if i = 25 then { val := .nat (.prim .mapPut) }
  else if i = 26 then { val := .nat .respond }
  else (values[i - 30]?).getD { val := .obj }

/-- A state with these objects. -/
def state (d : Dict) (W : Names) (values : List Obj) : St where
  obj := objects d W values
  fresh := 30 + values.length
  ctxs := [worldO]
  flow := none
  stack := []
  recursion := none
  sandbox := false
  steps := 0
  deser := false
  log := []
  evals := 0

theorem state_ready (values : List Obj) : Ready english nm englishNames 20 30 (state english englishNames values) where
  flow := rfl
  sandbox := rfl
  low := Nat.le_add_right _ _
  world := ⟨by decide, by decide, by decide, fun c hc => by rw [List.mem_singleton.1 hc]; decide⟩
  seq := rfl
  list := rfl
  none := rfl
  true := rfl
  false := rfl
  plain := ⟨rfl, rfl⟩
  seqNew := ⟨21, rfl, rfl, List.not_mem_nil, by decide⟩
  seqArrow := ⟨22, rfl, rfl, List.not_mem_nil, by decide⟩
  seqPush := ⟨23, rfl, rfl, List.not_mem_nil, by decide⟩
  mapNew := ⟨24, rfl, rfl, List.not_mem_nil, by decide⟩
  mapPut := ⟨25, rfl, rfl, List.not_mem_nil, by decide⟩

/-- (Sequence ← -1,234,567 ; ['hi'] ; ((List new) put:True at:['a'], put:(Sequence new) at:['b']) ; None) -/
def value : V := .seq [.num (-1234567), .text [104, 105], .map [([97], .bool true), ([98], .seq [])], .nil]

/-- The text of that value. -/
def written : Text := textOf english englishNames value

/-- The value and its text as objects. -/
def values : List Obj :=
  [{ val := .arr [31, 32, 33, 0], link := some arrP }, { val := .num (-1234567), link := some numP },
    { val := .str (nm [104, 105]), link := some strP }, { val := .obj, link := some 20, props := [(nm [97], 1), (nm [98], 34)] },
    { val := .arr [], link := some arrP }, { val := .str (nm written), link := some strP }]

theorem value_fine : Fine english value := by
  simp only [value, Fine, FineAll, FinePairs, and_true, true_and]
  refine ⟨by decide +kernel, by decide +kernel, by decide, by decide +kernel, by decide +kernel⟩

theorem value_shallow : Shallow 99 99 value := by
  simp only [value, Shallow, ShallowAll, ShallowPairs, and_true, true_and]
  decide

theorem value_there : Rep nm 20 (state english englishNames values).obj
    (fun j => falseO < j ∧ j < (state english englishNames values).fresh) 30 value := by
  simp only [value, Rep, RepAll, RepPairs]
  exact ⟨by decide, _, rfl, 31, _, rfl, ⟨by decide, rfl⟩, 32, _, rfl, ⟨by decide, rfl⟩, 33, _, rfl,
    ⟨by decide, _, rfl, 1, _, rfl, rfl, 34, _, rfl, ⟨by decide, _, rfl, rfl⟩, rfl⟩, 0, _, rfl, rfl, rfl⟩

/-- The hypotheses of `C75_partial` are met, and the text is that of the text object 35. -/
example : Fits english englishNames ∧ (∀ t, un (nm t) = t) ∧ Fine english value ∧ Shallow 99 99 value ∧
    Ready english nm englishNames 20 30 (state english englishNames values) ∧
    Rep nm 20 (state english englishNames values).obj
      (fun j => falseO < j ∧ j < (state english englishNames values).fresh) 30 value ∧
    ((state english englishNames values).obj 35).val = .str (nm written) ∧
    (codeOf (wordsOf english englishNames) (view english un englishNames 20 (state english englishNames values).obj) 201 30
      Model.Nest.init).map (·.1) = some written :=
  ⟨english_fits, un_nm, value_fine, value_shallow, state_ready _, value_there, rfl, by decide +kernel⟩

/-! ## Where it goes wrong -/

/-- Primitives that are not needed. -/
def noOther : Prim → (Nat → Obj) → Nat → Nat → List Nat → Res PrimOut := fun _ _ _ _ _ => .exit

/-- The message `object` to the text object at `x`. -/
def read (d : Dict) (x : Nat) (s : St) : Res (St × Nat) :=
  native (env d nm un noOther) (exec (env d nm un noOther) 40) .eval x [] s

/-- Does the run end in a state with the property? -/
def ends (o : Res (St × Nat)) (p : St → Nat → Bool) : Bool :=
  match o with
  | .ok (s, i) => p s i
  | _ => false

theorem of_ends {o : Res (St × Nat)} {p : St → Nat → Bool} (h : ends o p = true) : ∃ s i, o = .ok (s, i) ∧ p s i = true := by
  unfold ends at h
  split at h
  · exact ⟨_, _, rfl, h⟩
  · cases h

/-- The text of a value in English. -/
def shown (s : St) (i : Nat) : Option Text :=
  (codeOf (wordsOf english englishNames) (view english un englishNames 20 s.obj) 201 i Model.Nest.init).map (·.1)

/-- **C75 does not hold for the order of entries**: a list with two entries that is read back has a different text. -/
theorem C75_order_violated : ∃ (s s' : St) (i x j : Nat) (t t' : Text), shown s i = some t ∧ (s.obj x).val = .str (nm t) ∧
    read english x s = .ok (s', j) ∧ shown s' j = some t' ∧ t' ≠ t := by
  obtain ⟨s', j, h1, h2⟩ := of_ends (o := read english 35 (state english englishNames values))
    (p := fun s' j => (shown s' j).isSome && shown s' j != some written) (by decide +kernel)
  simp only [Bool.and_eq_true, bne_iff_ne, ne_eq] at h2
  obtain ⟨t', ht'⟩ := Option.isSome_iff_exists.1 h2.1
  refine ⟨state english englishNames values, s', 30, 35, j, written, t', by decide +kernel, rfl, h1, ht', fun h => h2.2 ?_⟩
  rw [ht', h]

/-- **C75 does not hold for numbers with a unit**: 5 kilometres are written down as "5 km" and read back as Nil, without an
error: `km` is taken for a message that nobody answers. -/
theorem C75_unit_violated : ∃ t s', Model.Num.numberToString ⟨english.tho, english.dec⟩ (printed 5) (some [107, 109]) = .ok t ∧
    read english 30 (state english englishNames [{ val := .str (nm t), link := some strP }]) = .ok (s', nilO) ∧
    s'.flow = none := by
  obtain ⟨s', j, h1, h2⟩ := of_ends (o := read english 30 (state english englishNames
    [{ val := .str (nm [53, 32, 107, 109]), link := some strP }])) (p := fun s' j => j == nilO && s'.flow.isNone)
    (by decide +kernel)
  simp only [Bool.and_eq_true, beq_iff_eq, Option.isNone_iff_eq_none] at h2
  exact ⟨[53, 32, 107, 109], s', by decide +kernel, by rw [h1, h2.1], h2.2⟩

end Verif.Props.ReadBack
