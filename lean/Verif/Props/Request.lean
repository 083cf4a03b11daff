import Verif.Lemmas.RequestForm

/-!
# Properties of web requests (C82, C83, C84)
-/

namespace Verif.Props.Req
open Verif Verif.Model Verif.Model.Req Verif.Spec.Req Verif.Lemmas.Req

theorem out_eq {α : Type} [DecidableEq α] {o : Out α} {x : α} (h : o.sat (fun y => decide (y = x)) = true) : o = .ok x := by
  obtain ⟨y, h1, h2⟩ := Out.of_sat h
  rw [h1, of_decide_eq_true h2]

theorem ok_of_sat {α : Type} {o : Out α} {p : α → Bool} (h : o.sat p = true) : ∃ v, o = .ok v ∧ p v = true := by
  obtain ⟨y, h1, h2⟩ := Out.of_sat h
  exact ⟨y, h1, h2⟩

/-- A request answers as these fields say: the first value of a name (or nothing), and all its values. -/
def Answers (v : Vars) (fs : List (Bytes × Bytes)) : Prop :=
  ∀ n, (0 : UInt8) ∉ n → requestString v n = (valuesOf fs n).head? ∧ requestArray v n = valuesOf fs n

theorem answers_all (fs : List (Bytes × Bytes)) : Answers (addAll [] fs) fs := by
  intro n hn
  have := says_addAll fs says_nil
  rw [List.nil_append] at this
  exact ⟨says_string this hn, says_array this hn⟩

/-! ## C82: queries -/

/-- `a` written as itself. -/
theorem written_a {also : UInt8 → Bool} : Written also [97] [97] := .self 97 (by simp) .nil

/-- `q=a b&q=%26=` -/
def ask : List Item :=
  [⟨[113], [97, 32, 98], [113], [97, 43, 98]⟩, ⟨[113], [38, 61], [113], [37, 50, 54, 61]⟩]

theorem ask_ok : ∀ i ∈ ask, i.Ok := by
  intro i hi
  simp only [ask, List.mem_cons, List.not_mem_nil, or_false] at hi
  rcases hi with rfl | rfl
  · refine ⟨by simp, by decide, by decide, .self _ (by simp) .nil, .self _ (by simp) (.blank (.self _ (by simp) .nil))⟩
  · refine ⟨by simp, by decide, by decide, .self _ (by simp) .nil, .code 38 50 54 (by decide) (.self _ (by simp) .nil)⟩

/-- C82: whatever fields are sent in a query, in whatever way their bytes are written, the request answers the first value
of a name and the list of all its values, in the order in which they were sent. -/
theorem C82_query_partial (is : List Item) (h : ∀ i ∈ is, i.Ok) :
    ∃ v, getQuery (some (query is)) = .ok v ∧ Answers v (is.map fun i => (i.name, i.value)) := by
  obtain ⟨h0, hf⟩ := query_fields is h
  refine ⟨_, decodeQuery_all [] _, ?_⟩
  have : entered (query is) = is.map fun i => (i.name, i.value) := by
    unfold entered
    rw [cstr_id h0, hf]
    rw [List.map_map]
    apply List.map_congr_left
    intro i hi
    obtain ⟨_, hn, hv, _⟩ := h i hi
    simp [cstr_id hn, cstr_id hv]
  rw [this]
  exact answers_all _

example : ∃ is, (∀ i ∈ is, i.Ok) ∧ 2 ≤ is.length ∧ query is = [113, 61, 97, 43, 98, 38, 113, 61, 37, 50, 54, 61] ∧
    valuesOf (is.map fun i => (i.name, i.value)) [113] = [[97, 32, 98], [38, 61]] :=
  ⟨ask, ask_ok, by decide, by decide, by decide⟩

/-- C82: any text at all is read as the fields between its `&`, up to the first `=` a name and then a value. -/
theorem C82_any_partial (q : Bytes) (h0 : (0 : UInt8) ∉ q) (h : ∀ f ∈ fields q, (0 : UInt8) ∉ f.1 ∧ (0 : UInt8) ∉ f.2) :
    ∃ v, getQuery (some q) = .ok v ∧ Answers v (fields q) := by
  refine ⟨_, decodeQuery_all [] _, ?_⟩
  have : entered q = fields q := by
    unfold entered
    rw [cstr_id h0]
    conv => rhs; rw [← List.map_id (fields q)]
    apply List.map_congr_left
    intro f hf
    simp [cstr_id (h f hf).1, cstr_id (h f hf).2]
  rw [this]
  exact answers_all _

/-- `&=a==b&%4&a` -/
example : let q : Bytes := [38, 61, 97, 61, 61, 98, 38, 37, 52, 38, 97]
    (0 : UInt8) ∉ q ∧ (∀ f ∈ fields q, (0 : UInt8) ∉ f.1 ∧ (0 : UInt8) ∉ f.2) ∧
      fields q = [([97], [61, 98]), ([37, 52], []), ([97], [])] := by decide

/-- C82: no query, however malformed, makes the reader write outside its buffer. -/
theorem C82_safe (env : Option Bytes) : ∃ v, getQuery env = .ok v := by
  cases env with
  | none => exact ⟨[], rfl⟩
  | some q => exact ⟨_, decodeQuery_all [] q⟩

example : getQuery (some [37, 37, 52, 61]) = .ok [([37, 37, 52], [[]])] := out_eq (by decide +kernel)

/-- C82: without a query nothing is answered. -/
theorem C82_none : ∃ v, getQuery none = .ok v ∧ Answers v [] := ⟨[], rfl, answers_all []⟩

theorem queryKind_take {k : Bytes} (hk : Cased k queryKind) (x : Bytes) :
    samecase ((cstr (k ++ x)).take 33) sUrlencoded = true := by
  have : cstr (k ++ x) = k ++ cstr x := by
    unfold cstr
    apply List.takeWhile_append_of_pos
    intro c hc
    simp only [bne_iff_ne, ne_eq]
    rintro rfl
    exact cased_not hk (by decide) (by decide) hc
  have hl : 33 = k.length := (cased_length hk).symm
  rw [this, hl, List.take_left]
  exact cased_same hk

/-- C82: a post in the manner of a query answers as the query of the same fields; what is sent behind the announced length
does not count. -/
theorem C82_post_partial (tmp : Temp) (is : List Item) (h : ∀ i ∈ is, i.Ok) (k x l more : Bytes) (hk : Cased k queryKind)
    (hd : Digits l)
    (hl : amount l = (query is).length) (hs : (query is).length < 2147483647) (hne : is ≠ []) :
    ∃ g, getPost tmp (some (k ++ x)) (some l) (query is ++ more) = .ok g ∧
      Answers g.vars (is.map fun i => (i.name, i.value)) ∧ g.files = [] := by
  obtain ⟨v, hv, ha⟩ := C82_query_partial is h
  refine ⟨⟨v, [], 0⟩, ?_, ha, rfl⟩
  have hpos : 0 < (query is).length := by
    match is, hne with
    | [i], _ => simp [query]; omega
    | i :: j :: r, _ => simp [query]; omega
  unfold getPost
  simp only
  rw [if_pos (queryKind_take hk x), atoi_digits hd (by omega), bind_ok, hl, if_pos (by omega), if_neg (by omega), if_neg (by simp),
    Int.toNat_natCast, List.take_left]
  rw [show getQuery (some (query is)) = decodeQuery [] (query is) from rfl] at hv
  rw [hv, bind_ok]

/-- The post `q=a+b&q=%26=` and its length `12`. -/
example : (∀ i ∈ ask, i.Ok) ∧ Cased queryKind queryKind ∧ Digits [49, 50] ∧ amount [49, 50] = (query ask).length ∧
    (query ask).length < 2147483647 ∧ ask ≠ [] :=
  ⟨ask_ok, rfl, by unfold Digits; decide, by decide, by decide, by decide⟩

/-- C82: a post that is shorter than announced answers nothing at all, not a part of a field. -/
theorem C82_post_short (tmp : Temp) (k x l inp : Bytes) (hk : Cased k queryKind) (hd : Digits l) (hl : inp.length < amount l)
    (hs : amount l < 2147483647) :
    ∃ g, getPost tmp (some (k ++ x)) (some l) inp = .ok g ∧ Answers g.vars [] ∧ g.files = [] := by
  refine ⟨⟨[], [], 0⟩, ?_, answers_all [], rfl⟩
  unfold getPost
  simp only
  rw [if_pos (queryKind_take hk x), atoi_digits hd (by omega), bind_ok, if_pos (by omega), if_neg (by omega), Int.toNat_natCast,
    if_pos hl]

example : Cased (65 :: queryKind.drop 1) queryKind ∧ Digits [57] ∧ ([97, 61, 98] : Bytes).length < amount [57] ∧ amount [57] < 2147483647 :=
  ⟨by unfold Cased; decide, by unfold Digits; decide, by decide, by decide⟩

/-- C82 does not hold for zero bytes: `a=x%00y` answers `x`. -/
theorem C82_zero_violated : ∃ q, (0 : UInt8) ∉ q ∧ fields q = [([97], [120, 0, 121])] ∧
    ∃ v, getQuery (some q) = .ok v ∧ requestString v [97] = some [120] :=
  ⟨[97, 61, 120, 37, 48, 48, 121], by decide, by decide, [([97], [[120]])], out_eq (by decide +kernel), by decide⟩

/-- A length that is no `int`, or the largest one, is undefined behaviour (a number that is too large is whatever `atoi`
makes of it, and one more than the largest number is asked for). -/
theorem C82_length_violated (tmp : Temp) (inp : Bytes) :
    (∃ l, Digits l ∧ getPost tmp (some queryKind) (some l) inp = .ub) ∧
      ∃ l, Digits l ∧ amount l = 2147483647 ∧ getPost tmp (some queryKind) (some l) inp = .ub :=
  ⟨⟨[51, 48, 48, 48, 48, 48, 48, 48, 48, 48], by unfold Digits; decide, rfl⟩,
    ⟨[50, 49, 52, 55, 52, 56, 51, 54, 52, 55], by unfold Digits; decide, by decide, rfl⟩⟩

/-! ## C83: cookies -/

/-- C83: whatever cookies are sent, with or without quotes, the request answers their values. -/
theorem C83_cookies_partial (cs : List Cookie) (h : ∀ c ∈ cs, c.Ok) :
    ∃ v, getCookie (some (cookieLine cs)) = .ok v ∧ Answers v (cs.map fun c => (c.name, c.value)) := by
  refine ⟨_, ?_, answers_all _⟩
  show cookies _ _ _ = _
  rw [cstr_id (cookieLine_zero cs h)]
  exact cookies_line cs _ [] h (Nat.lt_succ_self _)

/-- `id=7; q="a; b"` -/
example : let cs : List Cookie := [⟨[105, 100], [55], false⟩, ⟨[113], [97, 59, 32, 98], true⟩]
    (∀ c ∈ cs, c.Ok) ∧ cookieLine cs = [105, 100, 61, 55, 59, 32, 113, 61, 34, 97, 59, 32, 98, 34] := by
  refine ⟨?_, by decide⟩
  intro c hc
  simp only [List.mem_cons, List.not_mem_nil, or_false] at hc
  rcases hc with rfl | rfl
  · refine ⟨by simp, by decide, by simp, by simp, by decide, by decide, ?_⟩
    exact ⟨by intro b hb; simp at hb; subst hb; decide, by decide, by decide, by decide⟩
  · refine ⟨by simp, by decide, by simp, by simp, by decide, by decide, ?_⟩
    show (34 : UInt8) ∉ ([97, 59, 32, 98] : Bytes)
    decide

/-- C83: the reader of cookies comes to an end on every line. -/
theorem C83_safe (env : Option Bytes) : ∃ v, getCookie env = .ok v := by
  cases env with
  | none => exact ⟨[], rfl⟩
  | some t => exact cookies_ends _ _ _ (Nat.lt_succ_self _)

example : getCookie (some [59, 61, 34, 61]) = .ok [] := out_eq (by decide +kernel)

/-- `a=b c; d=e`: after a blank in a value the text up to the next `=` is taken for the name of the next cookie. -/
theorem C83_blank_violated : ∃ t : Bytes, t = [97, 61, 98, 32, 99, 59, 32, 100, 61, 101] ∧
    ∃ v, getCookie (some t) = .ok v ∧ requestString v [100] = none ∧ requestString v [99, 59, 32, 100] = some [101] :=
  ⟨_, rfl, [([97], [[98]]), ([99, 59, 32, 100], [[101]])], out_eq (by decide +kernel), by decide, by decide⟩

/-- `x; a=b`: a cookie without `=` takes the name of the next cookie away. -/
theorem C83_flag_violated : ∃ t : Bytes, t = [120, 59, 32, 97, 61, 98] ∧
    ∃ v, getCookie (some t) = .ok v ∧ requestString v [97] = none :=
  ⟨_, rfl, [([120, 59, 32, 97], [[98]])], out_eq (by decide +kernel), by decide⟩

/-- `a="b; c=d`: a quote that is not closed loses every cookie from there on. -/
theorem C83_quote_violated : ∃ t : Bytes, t = [97, 61, 34, 98, 59, 32, 99, 61, 100] ∧
    ∃ v, getCookie (some t) = .ok v ∧ requestString v [97] = none ∧ requestString v [99] = none :=
  ⟨_, rfl, [], out_eq (by decide +kernel), by decide, by decide⟩

/-! ## C84: forms and uploads -/

theorem form_post {st : Style} (hs : st.Ok) (tmp : Temp) (b : Bytes) (len : Option Bytes) (inp : Bytes) :
    getPost tmp (some (formKind st b)) len inp = readMultipart tmp (some (formKind st b)) inp := by
  cases len with
  | none => rfl
  | some l =>
    unfold getPost
    simp only
    rw [if_neg]
    have hm := hs.2.2.2.2.1
    have e : formKind st b = st.multipart ++ ([59, 32] ++ st.boundary ++ [61] ++ b) := by simp [formKind]
    have : cstr (formKind st b) = st.multipart ++ cstr ([59, 32] ++ st.boundary ++ [61] ++ b) := by
      rw [e]
      unfold cstr
      apply List.takeWhile_append_of_pos
      intro c hc
      simp only [bne_iff_ne, ne_eq]
      rintro rfl
      exact cased_not hm (by decide) (by decide) hc
    rw [this]
    intro h
    have h' := congrArg List.head? (eq_of_beq h)
    have hl : st.multipart.length = 19 := cased_length hm
    have hh := congrArg List.head? hm
    cases hc : st.multipart with
    | nil => rw [hc] at hl; simp at hl
    | cons c r =>
      rw [hc] at h' hh
      simp only [List.cons_append, List.take_succ_cons, List.map_cons, List.head?_cons, List.head?_map, lower_eq] at h' hh
      have h1 : small c = 97 := Option.some.inj (h'.trans (by decide))
      have h2 : small c = 109 := Option.some.inj (hh.trans (by decide))
      rw [h1] at h2
      exact absurd h2 (by decide)

theorem usual_ok : usual.Ok := ⟨rfl, rfl, rfl, rfl, rfl, rfl⟩

/-- C84: whatever parts a form has (whatever bytes the files have, as long as the boundary is not in them), the request
answers the values of its fields, for a file the name under which it is kept here and the name it had there, and exactly the
sent bytes are in the files. -/
theorem C84_form_partial (st : Style) (hs : st.Ok) (b : Bytes) (hb : Boundary b) (ps : List Part) (hp : ∀ p ∈ ps, p.Ok b) (tmp : Temp)
    (here : Nat → Bytes) (ht : ∀ i, tmp i = some (here i)) (len : Option Bytes) :
    ∃ g, getPost tmp (some (formKind st b)) len (form st b ps) = .ok g ∧ Answers g.vars (said here 0 ps) ∧
      g.files = uploads here 0 ps := by
  obtain ⟨k, hk⟩ := readMultipart_form hs hb ht hp
  exact ⟨_, (form_post hs tmp b len _).trans hk, answers_all _, rfl⟩

/-- A field `t` with the value `\r\n--` and a file `f.x` with the bytes `0 255`, the boundary is `B`. -/
def sent : List Part :=
  [.value [116] [13, 10, 45, 45], .file [102] [102, 46, 120] (some [97, 47, 98]) [0, 255]]

theorem not_infix_short {a b : Bytes} (h : b.length < a.length) : ¬ a <:+: b := fun hi => by
  have := hi.length_le
  omega

theorem sent_ok : Boundary [66] ∧ ∀ p ∈ sent, p.Ok [66] := by
  refine ⟨by intro c hc; simp at hc; subst hc; decide, ?_⟩
  intro p hp
  simp only [sent, List.mem_cons, List.not_mem_nil, or_false] at hp
  rcases hp with rfl | rfl
  · exact ⟨⟨by decide, by decide, by decide⟩, not_infix_short (by decide), by decide⟩
  · refine ⟨⟨by decide, by decide, by decide⟩, not_infix_short (by decide), ⟨by decide, by decide, by decide⟩, ?_⟩
    rintro k' h
    injection h with h
    subst h
    exact ⟨by decide, by decide⟩

/-- Names of files: `/1`, `/2` and so on. -/
def there (i : Nat) : Bytes := [47, UInt8.ofNat (49 + i)]

example : ({ usual with name := [78, 65, 77, 101] } : Style).Ok ∧ (Boundary [66] ∧ ∀ p ∈ sent, p.Ok [66]) ∧ (∀ i, (fun i => some (there i)) i = some (there i)) ∧
    said there 0 sent = [([116], [13, 10, 45, 45]), ([102], [47, 49]), ([102], [102, 46, 120])] ∧
    uploads there 0 sent = [([47, 49], [0, 255])] :=
  ⟨⟨rfl, rfl, by unfold Cased; decide, rfl, rfl, rfl⟩, sent_ok, fun _ => rfl, rfl, rfl⟩

/-- How many files are sent. -/
def filesIn : List Part → Nat
  | [] => 0
  | .value _ _ :: r => filesIn r
  | .file _ f _ _ :: r => (if f = [] then 0 else 1) + filesIn r

theorem said_append (here : Nat → Bytes) : ∀ (a z : List Part) (i : Nat),
    said here i (a ++ z) = said here i a ++ said here (i + filesIn a) z
  | [], z, i => rfl
  | .value n v :: a, z, i => by simp [said, filesIn, said_append here a z]
  | .file n f k c :: a, z, i => by
    by_cases hf : f = []
    · simp [said, filesIn, hf, said_append here a z]
    · simp [said, filesIn, hf, said_append here a z, Nat.add_assoc]

theorem uploads_append (here : Nat → Bytes) : ∀ (a z : List Part) (i : Nat),
    uploads here i (a ++ z) = uploads here i a ++ uploads here (i + filesIn a) z
  | [], z, i => rfl
  | .value n v :: a, z, i => by simp [uploads, filesIn, uploads_append here a z]
  | .file n f k c :: a, z, i => by
    by_cases hf : f = []
    · simp [uploads, filesIn, hf, uploads_append here a z]
    · simp [uploads, filesIn, hf, uploads_append here a z, Nat.add_assoc]

theorem said_other (here : Nat → Bytes) (n : Bytes) : ∀ (a : List Part) (i : Nat), (∀ p ∈ a, p.name ≠ n) →
    valuesOf (said here i a) n = []
  | [], _, _ => rfl
  | .value m v :: a, i, h => by
    have hm : m ≠ n := h _ (List.mem_cons_self ..)
    have ih := said_other here n a i (fun p hp => h p (List.mem_cons_of_mem _ hp))
    simpa [said, valuesOf, hm] using ih
  | .file m f k c :: a, i, h => by
    have hm : m ≠ n := h _ (List.mem_cons_self ..)
    by_cases hf : f = []
    · have ih := said_other here n a i (fun p hp => h p (List.mem_cons_of_mem _ hp))
      simpa [said, valuesOf, hm, hf] using ih
    · have ih := said_other here n a (i + 1) (fun p hp => h p (List.mem_cons_of_mem _ hp))
      simpa [said, valuesOf, hm, hf] using ih

theorem requestFile_eq (v : Vars) (n : Bytes) :
    requestFile v n = if 2 ≤ (requestArray v n).length then requestArray v n else [] := by
  unfold requestFile requestArray
  cases h : lookupAll v (cstring n) with
  | none => simp
  | some l =>
    match l with
    | [] => simp
    | [a] => simp
    | a :: b :: r => simp

/-- C84: the message that asks for an uploaded file answers the name under which its bytes are kept and the name it had
there, in this order, if no other part has the same name. -/
theorem C84_upload_partial (st : Style) (hs : st.Ok) (b : Bytes) (hb : Boundary b) (a z : List Part) (n f : Bytes) (k : Option Bytes) (c : Bytes)
    (hp : ∀ p ∈ a ++ .file n f k c :: z, p.Ok b) (hf : f ≠ []) (ho : ∀ p ∈ a ++ z, p.name ≠ n) (tmp : Temp)
    (here : Nat → Bytes) (ht : ∀ i, tmp i = some (here i)) (len : Option Bytes) :
    ∃ g p, getPost tmp (some (formKind st b)) len (form st b (a ++ .file n f k c :: z)) = .ok g ∧
      requestFile g.vars n = [p, f] ∧ (p, c) ∈ g.files := by
  obtain ⟨g, hg, ha, hu⟩ := C84_form_partial st hs b hb _ hp tmp here ht len
  have hn : (0 : UInt8) ∉ n := (hp (.file n f k c) (by simp)).1.1
  refine ⟨g, here (filesIn a), hg, ?_, ?_⟩
  · have hv : valuesOf (said here 0 (a ++ .file n f k c :: z)) n = [here (filesIn a), f] := by
      rw [said_append, said, if_neg hf]
      have h1 := said_other here n a 0 (fun p hp => ho p (by simp [hp]))
      have h2 := said_other here n z (filesIn a + 1) (fun p hp => ho p (by simp [hp]))
      unfold valuesOf at *
      rw [List.filter_append, List.map_append, h1]
      simp only [List.filter_cons, beq_self_eq_true, if_true, List.map_cons, h2, List.nil_append, Nat.zero_add]
    rw [requestFile_eq, (ha n hn).2, hv]
    rfl
  · rw [hu, uploads_append, uploads, if_neg hf]
    simp

example : (∀ p ∈ [Part.value [116] [13, 10, 45, 45]] ++ .file [102] [102, 46, 120] (some [97, 47, 98]) [0, 255] :: [], p.Ok [66]) ∧
    ([102, 46, 120] : Bytes) ≠ [] ∧ ∀ p ∈ [Part.value [116] [13, 10, 45, 45]] ++ [], p.name ≠ [102] :=
  ⟨sent_ok.2, by decide, by intro p hp; simp at hp; subst hp; decide⟩

/-- C84: the message that asks for an uploaded file answers nothing if a field was sent once and no file. -/
theorem C84_no_upload_partial (st : Style) (hs : st.Ok) (b : Bytes) (hb : Boundary b) (a z : List Part) (n x : Bytes)
    (hp : ∀ p ∈ a ++ .value n x :: z, p.Ok b) (ho : ∀ p ∈ a ++ z, p.name ≠ n) (tmp : Temp)
    (here : Nat → Bytes) (ht : ∀ i, tmp i = some (here i)) (len : Option Bytes) :
    ∃ g, getPost tmp (some (formKind st b)) len (form st b (a ++ .value n x :: z)) = .ok g ∧
      requestFile g.vars n = [] ∧ requestString g.vars n = some x := by
  obtain ⟨g, hg, ha, hu⟩ := C84_form_partial st hs b hb _ hp tmp here ht len
  have hn : (0 : UInt8) ∉ n := (hp (.value n x) (by simp)).1.1
  have hv : valuesOf (said here 0 (a ++ .value n x :: z)) n = [x] := by
    rw [said_append, said]
    have h1 := said_other here n a 0 (fun p hp => ho p (by simp [hp]))
    have h2 := said_other here n z (0 + filesIn a) (fun p hp => ho p (by simp [hp]))
    unfold valuesOf at *
    rw [List.filter_append, List.map_append, h1]
    simp only [List.filter_cons, beq_self_eq_true, if_true, List.map_cons, h2, List.nil_append]
  refine ⟨g, hg, ?_, ?_⟩
  · rw [requestFile_eq, (ha n hn).2, hv]
    rfl
  · rw [(ha n hn).1, hv]
    rfl

example : (∀ p ∈ [] ++ Part.value [116] [13, 10, 45, 45] :: [.file [102] [102, 46, 120] (some [97, 47, 98]) [0, 255]], p.Ok [66]) ∧
    ∀ p ∈ [] ++ [Part.file [102] [102, 46, 120] (some [97, 47, 98]) [0, 255]], p.name ≠ [116] :=
  ⟨sent_ok.2, by intro p hp; simp at hp; subst hp; decide⟩

/-- C84: reading a form comes to an end, whatever is sent, whatever is said about it and whether or not files can be made. -/
theorem C84_safe (tmp : Temp) (kind : Option Bytes) (inp : Bytes) : ∃ g, readMultipart tmp kind inp = .ok g := by
  unfold readMultipart
  cases kind with
  | none => exact ⟨_, rfl⟩
  | some k =>
    simp only
    split
    · exact ⟨_, rfl⟩
    · split
      · exact ⟨_, rfl⟩
      · split
        · exact ⟨_, rfl⟩
        · cases hr : readline inp with
          | none => exact ⟨_, rfl⟩
          | some e =>
            obtain ⟨l, rest⟩ := e
            simp only
            split
            · exact parts_ends tmp _ _ _ _ (by have := readline_short hr; omega)
            · exact ⟨_, rfl⟩

/-- A form that breaks off in the contents of a field. -/
example : readMultipart (fun _ => none) (some (formKind usual [66])) ([45, 45, 66, 13, 10] ++ disposition usual ++ [110, 34, 13, 10, 13, 10, 120]) =
    .ok ⟨[([110], [[120]])], [], 0⟩ := out_eq (by decide +kernel)

/-- Files that were not sent: two ordinary fields of the same name are answered like an uploaded file. Whoever sends
`f=/etc/passwd` and `f=x` chooses the file the program takes for the uploaded one. -/
theorem C84_spoof_violated (tmp : Temp) (here : Nat → Bytes) (ht : ∀ i, tmp i = some (here i)) :
    ∃ (b : Bytes) (ps : List Part), Boundary b ∧ (∀ p ∈ ps, p.Ok b) ∧ (∀ p ∈ ps, ∃ n v, p = .value n v) ∧
    ∃ g, getPost tmp (some (formKind usual b)) none (form usual b ps) = .ok g ∧ g.files = [] ∧
      requestFile g.vars [102] = [[47, 101, 116, 99], [120]] := by
  let ps : List Part := [.value [102] [47, 101, 116, 99], .value [102] [120]]
  have hok : ∀ p ∈ ps, p.Ok [66] := by
    intro p hp
    simp only [ps, List.mem_cons, List.not_mem_nil, or_false] at hp
    rcases hp with rfl | rfl
    · exact ⟨⟨by decide, by decide, by decide⟩, not_infix_short (by decide), by decide⟩
    · exact ⟨⟨by decide, by decide, by decide⟩, not_infix_short (by decide), by decide⟩
  obtain ⟨g, hg, ha, hu⟩ := C84_form_partial usual usual_ok [66] sent_ok.1 ps hok tmp here ht none
  refine ⟨[66], ps, sent_ok.1, hok, ?_, g, hg, hu, ?_⟩
  · intro p hp
    simp only [ps, List.mem_cons, List.not_mem_nil, or_false] at hp
    rcases hp with rfl | rfl <;> exact ⟨_, _, rfl⟩
  · rw [requestFile_eq, (ha [102] (by decide)).2]
    rfl

example : ∀ i, (fun i => some (there i)) i = some (there i) := fun _ => rfl

/-- A boundary with bytes from 128 on is never found: the contents of the first part are everything that follows. -/
theorem C84_boundary_violated : ∃ (b : Bytes) (p : Part), p.Ok b ∧
    ∃ g, getPost (fun _ => none) (some (formKind usual b)) none (form usual b [p]) = .ok g ∧ p.contents = [120] ∧
      requestString g.vars p.name ≠ some [120] := by
  refine ⟨[195, 182], .value [110] [120], ⟨⟨by decide, by decide, by decide⟩, not_infix_short (by decide), by decide⟩,
    ⟨[([110], [[120, 13, 10, 45, 45, 195, 182, 45, 45]])], [], 0⟩, ?_, rfl, by decide⟩
  rw [form_post usual_ok]
  exact out_eq (by decide +kernel)

/-- A zero byte cuts the value of a field off. -/
theorem C84_zero_violated : ∃ (b : Bytes) (p : Part), Boundary b ∧ Quotable p.name ∧ p.contents = [120, 0, 121] ∧
    ∃ g, getPost (fun _ => none) (some (formKind usual b)) none (form usual b [p]) = .ok g ∧
      requestString g.vars p.name = some [120] := by
  refine ⟨[66], .value [110] [120, 0, 121], sent_ok.1, ⟨by decide, by decide, by decide⟩, rfl,
    ⟨[([110], [[120]])], [], 0⟩, ?_, by decide⟩
  rw [form_post usual_ok]
  exact out_eq (by decide +kernel)

/-- If no file can be made, what was sent is dropped and nothing tells so. -/
theorem C84_full_violated : ∃ (b : Bytes) (p : Part), Boundary b ∧ p.Ok b ∧ p.contents = [0, 255] ∧
    ∃ g, getPost (fun _ => none) (some (formKind usual b)) none (form usual b [p]) = .ok g ∧ g.files = [] ∧
      requestString g.vars p.name = none := by
  refine ⟨[66], .file [102] [102, 46, 120] (some [97, 47, 98]) [0, 255], sent_ok.1, sent_ok.2 _ (by simp [sent]), rfl,
    ⟨[], [], 1⟩, ?_, rfl, by decide⟩
  rw [form_post usual_ok]
  exact out_eq (by decide +kernel)

/-- A form that breaks off within a boundary loses the bytes that could have been its beginning. -/
theorem C84_end_violated : ∃ g, getPost (fun _ => none) (some (formKind usual [66])) none
      ([45, 45, 66, 13, 10] ++ disposition usual ++ [110, 34, 13, 10, 13, 10] ++ [120, 13, 10, 45]) = .ok g ∧
      requestString g.vars [110] = some [120] := by
  refine ⟨⟨[([110], [[120]])], [], 0⟩, ?_, by decide⟩
  rw [form_post usual_ok]
  exact out_eq (by decide +kernel)

end Verif.Props.Req
