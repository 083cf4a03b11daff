import Verif.Lemmas.JsonEnds
import Verif.Lemmas.JsonWrite

/-!
# C77, C78, C79: JSON
-/

namespace Verif.Props.Json
open Verif Verif.Spec.Json Verif.Model.Json Verif.Lemmas.Json
open Verif.Model (Text)
open Verif.Model.Num (Seps numberFromText numberToString)

/-! ## C77: reading JSON -/

/-- A number of at most 40 bytes in which neither the group separator nor a decimal separator other than the point occurs. -/
def Legible (tho dec : UInt8) (t : Text) : Prop := t.length ≤ 40 ∧ tho ∉ t ∧ (dec ∈ t → dec = 46)

theorem legible {tho dec : UInt8} {t : Text} (h : Legible tho dec t) (h0 : ∀ c ∈ t, c ≠ 0) : numberFromText ⟨[tho], [dec]⟩ t = t := by
  obtain ⟨h1, h2, h3⟩ := h
  unfold numberFromText
  dsimp only
  rw [List.take_of_length_le h1]
  have e : t.takeWhile (· ≠ 0) = t := by
    have := List.takeWhile_append_of_pos (p := fun c : UInt8 => decide (c ≠ 0)) (l₁ := t) (l₂ := []) (fun c hc => by
      simpa using h0 c hc)
    simpa using this
  rw [e, Model.Num.national_eq tho dec t _ (Nat.lt_succ_self _)]
  have e2 : t.filter (· ≠ tho) = t := by
    rw [List.filter_eq_self]
    intro c hc
    have : c ≠ tho := fun e => h2 (e ▸ hc)
    simpa using this
  rw [e2]
  conv => rhs; rw [← List.map_id t]
  refine List.map_congr_left fun c hc => ?_
  show (if c = dec then 46 else c) = c
  split
  · rename_i e; rw [← h3 (e ▸ hc), e]
  · rfl

/-- **C77** for JSON objects with any blanks between their parts, in which texts have no `\u`, `\/`, `\f`, and no `\\` before a
backslash or `b`, `n`, `r`, `t`, and numbers are legible in the language: reading gives the value that the text means, without an
error. Missing: the other escapes and the other numbers (see below). -/
theorem C77_partial {D : Type} (fl : Floats D) (other : V D → Out Text) {tho dec : UInt8} {w : Text}
    {ms : List (Text × List Piece × Text × Text × Doc × Text)} (hv : Fine (Legible tho dec) (.obj w ms)) {a b : Text} (ha : Blanks a)
    (hb : Blanks b) (hlen : (a ++ (Doc.obj w ms).written ++ b).length < 2 ^ 31) :
    parse fl ⟨[tho], [dec]⟩ other (a ++ (Doc.obj w ms).written ++ b) = .ok ((Doc.obj w ms).meant fl.read, false) := by
  have key : Fine (fun t => Legible tho dec t ∧ ∀ c ∈ t, c ≠ 0) (.obj w ms) := by
    exact fine_nonzero _ _ hv
  exact parse_doc fl _ other _ fl.read (fun t h => by rw [legible h.1 h.2]) key ha hb hlen

instance (w : Text) : Decidable (Blanks w) := by unfold Blanks; infer_instance
instance (tho dec : UInt8) (t : Text) : Decidable (Legible tho dec t) := by unfold Legible; infer_instance

/-- English. -/
def english : Seps := ⟨[44], [46]⟩

/-- Dutch. -/
def dutch : Seps := ⟨[46], [44]⟩

/-- Numbers for the examples: whole numbers by their digits. -/
def whole : Floats Text := ⟨fun t => t.takeWhile (· ≠ 46), fun x => x ++ [46, 48, 48, 48, 48, 48, 48, 48, 48, 48, 48]⟩

/-- The document of the example: `{"a" :[1, -2.5,null ],"b\n": "x\"y"}` and blanks. -/
def sample : Doc := .obj [] [([], [.byte 97], [32], [], .arr [] [([], .num [49], []), ([32], .num [45, 50, 46, 53], []), ([], .null, [32])], []),
  ([], [.byte 98, .esc 110], [], [32], .text [.byte 120, .esc 34, .byte 121], [])]

/-- The hypotheses of `C77_partial` are met. -/
example : Fine (Legible 44 46) sample ∧ Blanks [10] ∧ sample.written = [123, 34, 97, 34, 32, 58, 91, 49, 44, 32, 45, 50, 46, 53, 44, 110, 117, 108, 108, 32, 93, 44, 34, 98, 92, 110, 34, 58, 32, 34, 120, 92, 34, 121, 34, 125] := by
  refine ⟨⟨by decide, ?_⟩, by decide, rfl⟩
  refine ⟨by decide, ⟨by decide, trivial⟩, by decide, by decide, ⟨by decide, ?_⟩, by decide, ?_⟩
  · exact ⟨by decide, ⟨⟨⟨49, _, rfl, by decide⟩, by decide⟩, by decide⟩, by decide,
      by decide, ⟨⟨⟨45, _, rfl, by decide⟩, by decide⟩, by decide⟩, by decide, by decide, trivial, by decide, trivial⟩
  · exact ⟨by decide, ⟨by decide, by decide, by decide, trivial⟩, by decide, by decide,
      ⟨by decide, by decide, by decide, by decide, trivial⟩, by decide, trivial⟩

/-- **C77 does not hold for `\u`**: `{"a":"\u0041"}` is read as the text `\u0041`, not as `A`. -/
theorem C77_unicode_violated {D : Type} (fl : Floats D) (other : V D → Out Text) :
    let d : Doc := .obj [] [([], [.byte 97], [], [], .text [.uni 48 48 52 49], [])]
    d.meant fl.read = .map [([97], .text [65])] ∧
    parse fl english other d.written = .ok (.map [([97], .text [92, 117, 48, 48, 52, 49])], false) := ⟨rfl, rfl⟩

/-- **C77 does not hold for `\/` and `\f`**: the backslashes stay. -/
theorem C77_escape_violated {D : Type} (fl : Floats D) (other : V D → Out Text) :
    let d : Doc := .obj [] [([], [.byte 97], [], [], .text [.esc 47, .esc 102], [])]
    d.meant fl.read = .map [([97], .text [47, 12])] ∧
    parse fl english other d.written = .ok (.map [([97], .text [92, 47, 92, 102])], false) := ⟨rfl, rfl⟩

/-- **C77 does not hold for a backslash before `n`**: `{"a":"\\n"}` makes the plugin write beyond its memory. -/
theorem C77_backslash_violated {D : Type} (fl : Floats D) (other : V D → Out Text) :
    let d : Doc := .obj [] [([], [.byte 97], [], [], .text [.esc 92, .byte 110], [])]
    d.meant fl.read = .map [([97], .text [92, 110])] ∧ parse fl english other d.written = .ub := ⟨rfl, rfl⟩

/-- **C77 does not hold for fractions in Dutch**: `{"a":1.5}` is read as 15. -/
theorem C77_fraction_violated {D : Type} (fl : Floats D) (other : V D → Out Text) :
    let d : Doc := .obj [] [([], [.byte 97], [], [], .num [49, 46, 53], [])]
    d.meant fl.read = .map [([97], .num (fl.read [49, 46, 53]) none)] ∧
    parse fl dutch other d.written = .ok (.map [([97], .num (fl.read [49, 53]) none)], false) := ⟨rfl, rfl⟩

/-! ## C78: writing JSON and reading it -/

/-- Lists are read back if their numbers are. -/
theorem read_back {D : Type} (fl : Floats D) (other : V D → Out Text) {tho dec : UInt8} {P : D → Prop}
    (hP : ∀ x, P x → ∃ u, numberToString ⟨[tho], [dec]⟩ (fl.print x) none = .ok u ∧ FineNumber u ∧
      fl.read (numberFromText ⟨[tho], [dec]⟩ u) = x) (es : List (Text × V D)) (hes : Plain P (.map es)) :
    ∃ t, jsonify fl ⟨[tho], [dec]⟩ es = .ok t ∧
      (t.length < 2 ^ 31 → parse fl ⟨[tho], [dec]⟩ other t = .ok (turned (.map es), false)) := by
  obtain ⟨hk, hes⟩ := hes
  obtain ⟨t, ms, h1, h2, h3, h4⟩ := json_entries fl _ _ hP es hes hk true
  have hw : (Doc.obj [] ms).written = 123 :: t ++ [125] := by
    rw [Doc.written, h2]
    simp
  have hm : (Doc.obj [] ms).meant (fun t => fl.read (numberFromText ⟨[tho], [dec]⟩ t)) = turned (.map es) := by
    rw [Doc.meant, turned, h4 [] (by intro k _ hk; cases hk), List.append_nil]
  refine ⟨123 :: t ++ [125], by unfold jsonify; rw [h1]; rfl, ?_⟩
  intro hlen
  have := parse_doc fl ⟨[tho], [dec]⟩ other (fun _ => True) (fun t => fl.read (numberFromText ⟨[tho], [dec]⟩ t)) (fun _ _ => rfl)
    (w := []) (ms := ms) ⟨no_blanks, h3⟩ (a := []) (b := []) no_blanks no_blanks (by
      rw [List.nil_append, List.append_nil, hw]; exact hlen)
  rw [List.nil_append, List.append_nil, hw, hm] at this
  exact this

/-- **C78** for lists of Nil, Booleans, numbers without a unit that keep their value, texts that survive escaping, sequences
(without sequences in them, and with texts without backslash) and lists: the JSON text of a list is read as the list with the
entries of all lists in the opposite order, without an error. Missing: the other values (see below). -/
theorem C78_partial {D : Type} (fl : Floats D) (other : V D → Out Text) {tho dec : UInt8} (hsep : Spec.Num.Separators tho dec)
    (es : List (Text × V D)) (hes : Plain (Kept fl.print fl.read tho dec) (.map es)) :
    ∃ t, jsonify fl ⟨[tho], [dec]⟩ es = .ok t ∧
      (t.length < 2 ^ 31 → parse fl ⟨[tho], [dec]⟩ other t = .ok (turned (.map es), false)) := by
  have hP : ∀ x, Kept fl.print fl.read tho dec x → ∃ u, numberToString ⟨[tho], [dec]⟩ (fl.print x) none = .ok u ∧ FineNumber u ∧
      fl.read (numberFromText ⟨[tho], [dec]⟩ u) = x := by
    rintro x ⟨sg, ds, f, h1, h2, h3, h4, h5, h6, h7, h8, h9⟩
    obtain ⟨u, g1, g2, g3⟩ := number_text hsep h1 h2 h3 h5 h6 h7
    refine ⟨u, by rw [h4, g1], g2, ?_⟩
    rcases g3 with ⟨e, hz⟩ | ⟨g, z, e1, e2, e3⟩
    · rw [e]; exact h8 hz
    · rw [e3]; exact h9 g z e1 e2
  exact read_back fl other hP es hes

/-- **C78**, the entries: the list that was read has under every key what the old list has (written and read in its turn). -/
theorem C78_lookup {D : Type} (es : List (Text × V D)) (h : (es.map (·.1)).Nodup) (k : Text) :
    lookup (turnedEntries es).reverse k = (lookup es k).map turned := by
  have hkeys := turned_keys es
  have hrev : ∀ l : List (Text × V D), (l.map (·.1)).Nodup → lookup l.reverse k = lookup l k := by
    intro l
    induction l with
    | nil => intro _; rfl
    | cons e l ih =>
      intro hn
      rw [List.map_cons, List.nodup_cons] at hn
      have ih := ih hn.2
      unfold lookup at ih ⊢
      rw [List.reverse_cons, List.find?_append, List.find?_cons]
      by_cases he : e.1 = k
      · have hno : l.reverse.find? (·.1 = k) = none := by
          rw [List.find?_eq_none]
          intro x hx
          have : x.1 ≠ k := fun hxk => hn.1 (by
            rw [he, ← hxk]
            exact List.mem_map_of_mem (List.mem_reverse.1 hx))
          simpa using this
        rw [hno]
        simp [he]
      · simp only [List.find?_cons, he, decide_false, List.find?_nil, Option.or_none]
        exact ih
  rw [hrev _ (by rw [hkeys]; exact h)]
  clear hrev hkeys h
  induction es with
  | nil => rfl
  | cons e es ih =>
    obtain ⟨k', v⟩ := e
    rw [turnedEntries]
    unfold lookup at ih ⊢
    rw [List.find?_cons, List.find?_cons]
    by_cases he : k' = k
    · simp [he]
    · simp only [he, decide_false]
      exact ih

/-- The list of the example: `["a" -> 5, "b" -> ["x\"", no entries]]`. -/
def cargo : List (Text × V Text) := [([97], .num [53] none), ([98], .seq [.text [120, 34], .map []])]

/-- The hypotheses of `C78_partial` are met, and what the text is. -/
example : Plain (Kept whole.print whole.read 44 46) (.map cargo) ∧
    jsonify whole english cargo = .ok [123, 34, 97, 34, 58, 53, 44, 32, 34, 98, 34, 58, 91, 34, 120, 92, 34, 34, 44, 123, 125, 93, 125] := by
  refine ⟨⟨by decide, ⟨⟨by decide, by decide, trivial⟩, ⟨rfl, ?_⟩, ⟨by decide, by decide, trivial⟩, ?_, trivial⟩⟩, rfl⟩
  · refine ⟨[], [53], [48, 48, 48, 48, 48, 48, 48, 48, 48, 48], Or.inl rfl, ⟨by decide, by decide⟩, ⟨by decide, by decide⟩, rfl, by decide, Or.inl (by decide), Or.inl (by decide),
      fun _ => rfl, fun g z _ _ => rfl⟩
  · exact ⟨by decide, ⟨by decide, trivial⟩, trivial⟩

/-- **C78 does not hold for numbers from 1000 on in English**: `{"a":1,000}` is not JSON. -/
theorem C78_thousand_violated (other : V Text → Out Text) : ∃ t, jsonify whole english [([97], .num [49, 48, 48, 48] none)] = .ok t ∧
    parse whole english other t = .ok (.nil, true) := ⟨[123, 34, 97, 34, 58, 49, 44, 48, 48, 48, 125], rfl, rfl⟩

/-- **C78 does not hold for numbers with a unit**: 5 kilometres are written as `{"a":5 km}`. -/
theorem C78_unit_violated (other : V Text → Out Text) : ∃ t, jsonify whole english [([97], .num [53] (some [107, 109]))] = .ok t ∧
    parse whole english other t = .ok (.nil, true) := ⟨[123, 34, 97, 34, 58, 53, 32, 107, 109, 125], rfl, rfl⟩

/-- **C78 does not hold for a sequence in a sequence**: it is read as a list without entries. -/
theorem C78_sequence_violated (other : V Text → Out Text) : ∃ t, jsonify whole english [([97], .seq [.seq [.nil]])] = .ok t ∧
    parse whole english other t = .ok (.map [([97], .seq [.map []])], false) := ⟨[123, 34, 97, 34, 58, 91, 123, 125, 93, 125], rfl, rfl⟩

/-- **C78 does not hold for backslashes in sequences**: the text `\t` is read as a tabulator. -/
theorem C78_backslash_violated (other : V Text → Out Text) : ∃ t, jsonify whole english [([97], .seq [.text [92, 116]])] = .ok t ∧
    parse whole english other t = .ok (.map [([97], .seq [.text [9]])], false) := ⟨[123, 34, 97, 34, 58, 91, 34, 92, 116, 34, 93, 125], rfl, rfl⟩

/-- **C78 does not hold for form feeds**: the text cannot be read. -/
theorem C78_formfeed_violated (other : V Text → Out Text) : ∃ t, jsonify whole english [([97], .text [12])] = .ok t ∧
    parse whole english other t = .ok (.nil, true) := ⟨[123, 34, 97, 34, 58, 34, 92, 12, 34, 125], rfl, rfl⟩

/-- **C78 does not hold for a backslash before `n`**: reading the text is undefined. -/
theorem C78_overlap_violated (other : V Text → Out Text) : ∃ t, jsonify whole english [([97], .text [92, 110])] = .ok t ∧
    parse whole english other t = .ub := ⟨[123, 34, 97, 34, 58, 34, 92, 92, 110, 34, 125], rfl, rfl⟩

/-! ## C79: reading any text -/

/-- **C79**, the tokenizer: for any text and any room for tokens both passes are defined; there are as many tokens as were
counted, no more than there is room for, and every token is a part of the text. Missing: what is made of the tokens (see below). -/
theorem C79_tokens_partial (js : Text) (k fuel : Nat) : (∃ r, tokenize none js fuel start = .ok r) ∧ ∃ s good, tokenize (some k) js fuel start = .ok (s, good) ∧
    s.toks.length = s.count ∧ s.count ≤ k ∧ ∀ t ∈ s.toks, ∀ e, t.fin = some e → t.start ≤ e ∧ e ≤ js.length := by
  obtain ⟨s, good, h1, h2, _⟩ := Inv.tokenize fuel start (Inv.begin js k)
  exact ⟨tokenize_defined js fuel start, s, good, h1, h2.len, h2.room, h2.fin⟩

/-- **C79**, the end: reading any text ends. A pass takes at most as many rounds as the text has bytes, and values are made with
calls that are nested at most as deep as there is room for tokens: allowing for more changes nothing. -/
theorem C79_ends (js : Text) (n : Nat) :
    tokenize none js (js.length + 1) start = tokenize none js (js.length + 1 + n) start ∧
    (∀ k, tokenize (some k) js (js.length + 1) start = tokenize (some k) js (js.length + 1 + n) start) ∧
    ∀ (D : Type) (fl : Floats D) (sp : Seps) (other : V D → Out Text) (cap : Nat) (toks : List Tok) (e : Bool),
      dump fl sp other js cap toks (cap + 1) 0 e = dump fl sp other js cap toks (cap + 1 + n) 0 e := by
  have h : ∀ m, m + 1 + n = m + n + 1 := fun m => by omega
  rw [h]
  refine ⟨tokenize_fuel_blind _ _ _ rfl rfl (by omega) (by omega), fun k => tokenize_fuel _ _ _ (Inv.begin js k) (by omega) (by omega), ?_⟩
  intro D fl sp other cap toks e
  rw [h]
  exact dump_fuel fl sp other js cap toks cap _ 0 e (by omega) (by omega)

/-- **C79**, the room: with as much room as the first pass counts, the second pass does what it does with any more room. -/
theorem C79_room (js : Text) (fuel : Nat) (s : St) (h : tokenize none js fuel start = .ok (s, true)) (k : Nat) (hk : s.count ≤ k) :
    tokenize (some s.count) js fuel start = tokenize (some k) js fuel start :=
  tokenize_room hk fuel start s (Inv.begin js _) h (Nat.le_refl _)

/-- The hypothesis of `C79_room` is met: `{"a":[1]}` has four tokens. -/
example : (match tokenize none [123, 34, 97, 34, 58, 91, 49, 93, 125] 10 start with
    | .ok (s, g) => g && s.count == 4
    | _ => false) = true := by decide +kernel

/-- **C79 does not hold for keys without a value**: `{"a"}` makes the plugin read beyond its memory. -/
theorem C79_key_violated {D : Type} (fl : Floats D) (other : V D → Out Text) : parse fl english other [123, 34, 97, 34, 125] = .ub := rfl

/-- **C79 does not hold for brackets that close nothing**: `{}]` is read without an error. -/
theorem C79_bracket_violated {D : Type} (fl : Floats D) (other : V D → Out Text) :
    parse fl english other [123, 125, 93] = .ok (.map [], false) := rfl

/-- **C79 does not hold for misspelt words**: `{"a":troe}` is read without an error. -/
theorem C79_word_violated {D : Type} (fl : Floats D) (other : V D → Out Text) :
    parse fl english other [123, 34, 97, 34, 58, 116, 114, 111, 101, 125] = .ok (.map [([97], .bool true)], false) := rfl

end Verif.Props.Json
