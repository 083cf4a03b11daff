import Verif.Model.File
import Verif.Spec.File

/-! # Files: properties -/

namespace Verif.Props.File

open Verif.Model Verif.Model.File
open Verif.Spec.File (Ask Answer contents answer)

/-- What is asked by a message. -/
def asked : Op → Ask
  | .read => .read
  | .write t _ => .write t
  | .append t _ => .append t
  | .isThere => .isThere
  | .delete => .delete
  | .size => .size

/-- What is answered by a reply. -/
def answered : Reply → Option Answer
  | .nil => none
  | .self => some .done
  | .text t => some (.text t)
  | .bool b => some (.bool b)
  | .number n => some (.number n)
  | .error => some .error

/-- A usable name: not empty, and without NUL bytes. -/
def Name (p : Text) : Prop := p ≠ [] ∧ ∀ c ∈ p, c ≠ 0

/-- Everything is permitted for the file, and what is written is accepted completely. -/
structure Fine (os : Os) (p : Text) (op : Op) : Prop where
  name : Name p
  mayRead : os.mayRead p = true
  mayWrite : os.mayWrite p = true
  mayRemove : os.mayRemove p = true
  room : ∀ t room, op = .write t room ∨ op = .append t room → t.length ≤ room

theorem stripped_name {p : Text} (h : Name p) : stripped p = p := by
  unfold stripped
  rw [List.filter_eq_self]
  intro c hc
  simpa using h.2 c hc

theorem cut_name {p : Text} (h : Name p) : cut p = p := by
  unfold cut
  obtain ⟨h', h⟩ := h
  clear h'
  induction p with
  | nil => rfl
  | cons c p ih =>
    rw [List.takeWhile_cons_of_pos (by simpa using h c List.mem_cons_self), ih (fun c hc => h c (List.mem_cons_of_mem _ hc))]

/-- A file that is not too large for the memory and for the type of sizes. -/
def Small (os : Os) (t : Text) : Prop := t.length < os.memory ∧ t.length < 2147483648

theorem toInt_small {n : Nat} (h : n < 2147483648) : toInt n = n := by
  unfold toInt
  rw [Int.bmod_def]
  omega

theorem send_fine {os : Os} {p : Text} {op : Op} (h : Fine os p op) (d : Disk) (hs : ∀ t, d p = some t → Small os t) :
    ∃ r d', send os (some p) op d = .ok (r, d') ∧ answered r = some (answer (d p) (asked op)) ∧
      ∀ q, d' q = contents d [(p, asked op)] q := by
  have h1 := stripped_name h.name
  have h2 := cut_name h.name
  have hr : openRead os d p = d p := by unfold openRead; rw [if_pos ⟨h.name.1, h.mayRead⟩]
  have hw : openWrite os p := ⟨h.name.1, h.mayWrite⟩
  have hput : ∀ (x : Option Text) q, (Disk.put d p x) q = if p ≠ q then d q else x := by
    intro x q
    unfold Disk.put
    by_cases e : q = p
    · rw [if_pos e, if_neg (by rw [e]; simp)]
    · rw [if_neg e, if_pos (fun h => e h.symm)]
  cases op with
  | read =>
    show ∃ r d', read os (some p) d = _ ∧ _
    unfold File.read
    dsimp only
    rw [h1, hr]
    cases hd : d p with
    | none =>
      refine ⟨_, _, rfl, rfl, fun q => ?_⟩
      simp [contents, asked]
    | some t =>
      dsimp only
      rw [if_neg (by have := (hs t hd).1; omega)]
      refine ⟨_, _, rfl, rfl, fun q => ?_⟩
      simp [contents, asked]
  | write t room =>
    show ∃ r d', write os (some p) t room d = _ ∧ _
    unfold File.write
    dsimp only
    rw [h2, if_pos hw, List.take_of_length_le (h.room t room (Or.inl rfl))]
    exact ⟨_, _, rfl, rfl, hput _⟩
  | append t room =>
    show ∃ r d', append os (some p) t room d = _ ∧ _
    unfold File.append
    dsimp only
    rw [h1, if_pos hw, List.take_of_length_le (h.room t room (Or.inr rfl))]
    refine ⟨_, _, rfl, rfl, fun q => ?_⟩
    rw [hput]
    by_cases e : p = q
    · subst e; simp [contents, asked]
    · simp [contents, e]
  | isThere =>
    show ∃ r d', isThere os (some p) d = _ ∧ _
    unfold File.isThere
    dsimp only
    rw [h1, hr]
    refine ⟨_, _, rfl, rfl, fun q => ?_⟩
    simp [contents, asked]
  | delete =>
    show ∃ r d', delete os (some p) d = _ ∧ _
    unfold File.delete
    dsimp only
    rw [h1]
    cases hd : d p with
    | none =>
      refine ⟨_, _, rfl, rfl, fun q => ?_⟩
      by_cases e : p = q
      · subst e; simp [contents, asked, hd]
      · simp [contents, e]
    | some t =>
      rw [if_pos ⟨rfl, h.name.1, h.mayRemove⟩]
      exact ⟨_, _, rfl, rfl, hput _⟩
  | size =>
    show ∃ r d', size os (some p) d = _ ∧ _
    unfold File.size
    dsimp only
    rw [h1, hr]
    cases hd : d p with
    | none =>
      refine ⟨_, _, rfl, rfl, fun q => ?_⟩
      simp [contents, asked]
    | some t =>
      dsimp only
      rw [toInt_small (hs t hd).2]
      refine ⟨_, _, rfl, rfl, fun q => ?_⟩
      simp [contents, asked]

/-- The history of some messages, the latest first. -/
def past (l : List (Text × Op)) : List (Text × Ask) := (l.map (fun x => (x.1, asked x.2))).reverse

theorem contents_append (first : Text → Option Text) : ∀ (a b : List (Text × Ask)) (p : Text),
    contents first (a ++ b) p = contents (contents first b) a p
  | [], b, p => rfl
  | (q, x) :: a, b, p => by
    have ih := contents_append first a b p
    cases x <;> simp only [List.cons_append, contents, ih]

/-- **C45** for files that may be opened, read and removed, whose names have no NUL bytes, that fit into memory and 2 GB, and
on a disk that accepts all bytes: every message in every history of messages to any files is answered according to
what was written and appended to that file before, and the files contain it in the end. -/
theorem C45_partial (os : Os) (d : Disk) (l : List (Text × Op)) (hf : ∀ x ∈ l, Fine os x.1 x.2)
    (hs : ∀ k p t, contents d (past (l.take k)) p = some t → Small os t) :
    ∃ rs d', run os l d = .ok (rs, d') ∧ rs.length = l.length ∧ (∀ p, d' p = contents d (past l) p) ∧
      ∀ k (h : k < l.length), ∃ r, rs[k]? = some r ∧
        answered r = some (answer (contents d (past (l.take k)) l[k].1) (asked l[k].2)) := by
  induction l generalizing d with
  | nil => exact ⟨[], d, rfl, rfl, fun _ => rfl, fun k h => absurd h (Nat.not_lt_zero _)⟩
  | cons x l ih =>
    obtain ⟨p, op⟩ := x
    obtain ⟨r, d1, h1, h2, h3⟩ := send_fine (hf (p, op) List.mem_cons_self) d (fun t ht => hs 0 p t ht)
    have hd : ∀ m q, contents d1 (past m) q = contents d (past ((p, op) :: m)) q := by
      intro m q
      rw [show past ((p, op) :: m) = past m ++ [(p, asked op)] by simp [past], contents_append, ← funext h3]
    obtain ⟨rs, d', g1, g2, g3, g4⟩ := ih d1 (fun x hx => hf x (List.mem_cons_of_mem _ hx)) (fun k q t ht => by
      rw [hd] at ht
      exact hs (k + 1) q t ht)
    refine ⟨r :: rs, d', ?_, by simp [g2], fun q => by rw [g3, hd], ?_⟩
    · unfold run
      rw [h1]
      show (run os l d1).bind _ = _
      rw [g1]
      rfl
    · intro k hk
      cases k with
      | zero => exact ⟨r, rfl, h2⟩
      | succ k =>
        obtain ⟨r', e1, e2⟩ := g4 k (by simpa using hk)
        refine ⟨r', by simpa using e1, ?_⟩
        rw [e2, hd]
        rfl

/-- Bytes written by messages. -/
def bytes : List (Text × Ask) → Nat
  | [] => 0
  | (_, .write t) :: l => t.length + bytes l
  | (_, .append t) :: l => t.length + bytes l
  | _ :: l => bytes l

theorem contents_bound (first : Text → Option Text) (n : Nat) (hf : ∀ p t, first p = some t → t.length ≤ n) :
    ∀ (l : List (Text × Ask)) (p t : Text), contents first l p = some t → t.length ≤ n + bytes l
  | [], p, t, h => hf p t h
  | (q, a) :: l, p, t, h => by
    have ih := contents_bound first n hf l p
    have hb : bytes l ≤ bytes ((q, a) :: l) := by cases a <;> simp [bytes]
    have hother : contents first l p = some t → t.length ≤ n + bytes ((q, a) :: l) := fun h => by have := ih t h; omega
    unfold contents at h
    split at h
    · exact hother h
    · cases a with
      | write u =>
        injection h with h
        subst h
        show u.length ≤ n + (u.length + bytes l)
        omega
      | append u =>
        injection h with h
        subst h
        show ((contents first l p).getD [] ++ u).length ≤ n + (u.length + bytes l)
        rw [List.length_append]
        cases hc : contents first l p with
        | none => simp; omega
        | some v => have := ih v hc; simp; omega
      | delete => cases h
      | read => exact hother h
      | isThere => exact hother h
      | size => exact hother h

/-- The condition on the sizes follows from the bytes there at first and the bytes written. -/
theorem small_of_bytes (os : Os) (d : Disk) (l : List (Text × Op)) (n : Nat) (hd : ∀ p t, d p = some t → t.length ≤ n)
    (h : n + bytes (past l) < os.memory ∧ n + bytes (past l) < 2147483648) :
    ∀ k p t, contents d (past (l.take k)) p = some t → Small os t := by
  have app : ∀ a b : List (Text × Ask), bytes (a ++ b) = bytes a + bytes b := by
    intro a b
    induction a with
    | nil => simp [bytes]
    | cons x a ih =>
      obtain ⟨q, x⟩ := x
      cases x <;> simp [bytes, ih] <;> omega
  intro k p t ht
  have h1 := contents_bound d n hd _ p t ht
  have h2 : bytes (past l) = bytes (past (l.drop k)) + bytes (past (l.take k)) := by
    rw [← app]
    unfold past
    rw [← List.reverse_append, ← List.map_append, List.take_append_drop]
  exact ⟨by omega, by omega⟩

/-- A computer on which everything is permitted. -/
def freely : Os := ⟨fun _ => true, fun _ => true, fun _ => true, 1000⟩

/-- Two files, written, appended, read and deleted. -/
example : let l : List (Text × Op) := [([97], .write [1, 0, 2] 9), ([98], .append [3] 1), ([97], .append [4] 9), ([97], .read),
      ([97], .delete), ([98], .size)]
    (∀ x ∈ l, Fine freely x.1 x.2) ∧ ∀ k p t, contents (fun _ => none) (past (l.take k)) p = some t → Small freely t := by
  refine ⟨?_, ?_⟩
  · intro x hx
    have hn : ∀ c : UInt8, c ≠ 0 → Name [c] := fun c h => ⟨by simp, by simpa using h⟩
    simp only [List.mem_cons, List.not_mem_nil, or_false] at hx
    rcases hx with rfl | rfl | rfl | rfl | rfl | rfl <;>
      refine ⟨hn _ (by decide), rfl, rfl, rfl, ?_⟩ <;>
      · intro t room h
        rcases h with h | h
        all_goals first
          | (injection h with h1 h2; subst h1 h2; decide)
          | cases h
  · exact small_of_bytes freely _ _ 0 (fun p t h => by cases h) (by decide)

/-- **C45**: a message that is refused raises an error, changes nothing, and `exists` is false and `size` 0 for files that cannot be
opened. -/
theorem C45_refused (os : Os) (d : Disk) (p : Text) (h : Name p) :
    (os.mayWrite p = false → ∀ t room, send os (some p) (.write t room) d = .ok (.error, d) ∧
      send os (some p) (.append t room) d = .ok (.error, d)) ∧
    (os.mayRead p = false → send os (some p) .read d = .ok (.error, d) ∧ send os (some p) .isThere d = .ok (.bool false, d) ∧
      send os (some p) .size d = .ok (.number 0, d)) ∧
    (os.mayRemove p = false → send os (some p) .delete d = .ok (.error, d)) := by
  have h1 := stripped_name h
  have h2 := cut_name h
  refine ⟨?_, ?_, ?_⟩
  · intro hw t room
    have hno : ¬ openWrite os p := fun h => by rw [h.2] at hw; cases hw
    constructor
    · show File.write os (some p) t room d = _
      unfold File.write
      dsimp only
      rw [h2, if_neg hno]
    · show File.append os (some p) t room d = _
      unfold File.append
      dsimp only
      rw [h1, if_neg hno]
  · intro hw
    have hno : openRead os d p = none := by
      unfold openRead
      rw [if_neg (fun h => by rw [h.2] at hw; cases hw)]
    refine ⟨?_, ?_, ?_⟩
    · show File.read os (some p) d = _
      unfold File.read
      dsimp only
      rw [h1, hno]
    · show File.isThere os (some p) d = _
      unfold File.isThere
      dsimp only
      rw [h1, hno]
      rfl
    · show File.size os (some p) d = _
      unfold File.size
      dsimp only
      rw [h1, hno]
  · intro hw
    show File.delete os (some p) d = _
    unfold File.delete
    dsimp only
    rw [h1, if_neg (fun h => by rw [h.2.2] at hw; cases hw)]

/-- A file that may only be read. -/
example : let os : Os := ⟨fun _ => true, fun _ => false, fun _ => false, 1000⟩
    Name [97] ∧ os.mayWrite [97] = false ∧ os.mayRemove [97] = false := ⟨⟨by simp, by simp⟩, rfl, rfl⟩

/-- **C45** is violated for names with a NUL byte: `write:` uses the name up to it, `read` the name without it. What was written
cannot be read, and another file is overwritten. -/
theorem C45_violated_name : ∃ (p q t u : Text) (d : Disk), d q = some u ∧
    run freely [(p, .write t 1000), (p, .read), (q, .read)] d
      = .ok ([.self, .error, .text t], d.put q (some t)) ∧ p ≠ q ∧ t ≠ u :=
  ⟨[97, 0, 98], [97], [1], [2], fun q => if q = [97] then some [2] else none, rfl, by
    refine congrArg Out.ok (Prod.ext ?_ rfl)
    decide, by decide, by decide⟩

/-- **C45** is violated on a full disk: `write:` answers as if all was written. -/
theorem C45_violated_full : ∃ (p t : Text) (d : Disk), Name p ∧
    (run freely [(p, .write t 1), (p, .read)] d).sat (fun r => r.1 = [.self, .text (t.take 1)]) ∧ t.take 1 ≠ t :=
  ⟨[97], [1, 2], fun _ => none, ⟨by simp, by simp⟩, by decide, by decide⟩

/-- **C45** is violated for large files: the size of a file of 2 GB or more, up to 4 GB, is answered as a negative number. -/
theorem C45_violated_size (os : Os) (d : Disk) (p t : Text) (h : Name p) (hr : os.mayRead p = true) (hd : d p = some t)
    (hl : 2147483648 ≤ t.length ∧ t.length < 4294967296) :
    ∃ n : Int, send os (some p) .size d = .ok (.number n, d) ∧ n < 0 := by
  refine ⟨toInt t.length, ?_, ?_⟩
  · show File.size os (some p) d = _
    unfold File.size openRead
    dsimp only
    rw [stripped_name h, if_pos ⟨h.1, hr⟩, hd]
  · unfold toInt
    rw [Int.bmod_def]
    omega

/-- There are such files. -/
example : ∃ (d : Disk) (t : Text), d [97] = some t ∧ 2147483648 ≤ t.length ∧ t.length < 4294967296 :=
  ⟨fun _ => some (List.replicate 2147483648 0), _, rfl, by rw [List.length_replicate]; decide, by rw [List.length_replicate]; decide⟩

/-! ## Folders -/

/-- **C58** for folders whose name leaves room for the names of the entries: the list has all entries that lead somewhere, in
their order, each with the kind of what it leads to. -/
theorem C58_partial (openDir : Text → Option (List Text)) (resolve : Text → Option Kind) (path : Text) (names : List Text)
    (hp : ∀ c ∈ path, c ≠ 0) (ho : openDir path = some names) (hn : ∀ n ∈ names, path.length + 1 + n.length ≤ 4096)
    (h0 : 1 ≤ path.length ∧ path.length < 4096) :
    ∃ l, list openDir resolve path = .ok (some l) ∧ l.map (·.1) = names.filter (fun n => (resolve (path ++ [47] ++ n)).isSome) ∧
      ∀ x ∈ l, resolve (path ++ [47] ++ x.1) = some x.2 := by
  have hs : stripped path = path := stripped_name ⟨by intro h; rw [h] at h0; exact absurd h0.1 (by decide), hp⟩
  have key : ∀ m : List Text, (∀ n ∈ m, path.length + 1 + n.length ≤ 4096) → ∃ l, listLoop resolve path m = .ok l ∧
      l.map (·.1) = m.filter (fun n => (resolve (path ++ [47] ++ n)).isSome) ∧ ∀ x ∈ l, resolve (path ++ [47] ++ x.1) = some x.2 := by
    intro m hm
    induction m with
    | nil => exact ⟨[], rfl, rfl, fun x hx => by cases hx⟩
    | cons n m ih =>
      obtain ⟨l, h1, h2, h3⟩ := ih (fun n hn => hm n (List.mem_cons_of_mem _ hn))
      have hn := hm n List.mem_cons_self
      unfold listLoop
      rw [if_neg (by unfold pathMax; omega), if_neg (by unfold pathMax; omega), h1]
      show ∃ l', (match resolve (path ++ [47] ++ n) with | none => Out.ok l | some k => .ok ((n, k) :: l)) = .ok l' ∧ _
      cases hr : resolve (path ++ [47] ++ n) with
      | none => exact ⟨l, rfl, by rw [List.filter_cons_of_neg (by rw [hr]; simp), h2], h3⟩
      | some k =>
        refine ⟨_, rfl, by rw [List.filter_cons_of_pos (by rw [hr]; simp), ← h2]; rfl, ?_⟩
        intro x hx
        cases hx with
        | head => exact hr
        | tail _ hx => exact h3 x hx
  obtain ⟨l, h1, h2, h3⟩ := key names hn
  refine ⟨l, ?_, h2, h3⟩
  unfold list
  rw [hs, if_neg (by unfold pathMax; omega), ho]
  dsimp only
  rw [h1]
  rfl

/-- `/tmp` with a file and a link that leads nowhere. -/
example : let path : Text := [47, 116, 109, 112]
    (∀ c ∈ path, c ≠ 0) ∧ (∀ n ∈ ([[97], [98]] : List Text), path.length + 1 + n.length ≤ 4096) ∧ 1 ≤ path.length ∧ path.length < 4096 := by
  decide

/-- **C58**: NUL bytes in the name of a folder make no difference. -/
theorem C58_name (openDir : Text → Option (List Text)) (resolve : Text → Option Kind) (path : Text) :
    list openDir resolve path = list openDir resolve (path.filter (· != 0)) := by
  have h : ∀ p : Text, stripped (stripped p) = stripped p := by
    intro p
    unfold stripped
    rw [List.filter_filter]
    simp only [Bool.and_self]
  unfold list
  rw [show path.filter (· != 0) = stripped path from rfl, h]

/-- **C58** is violated: an entry that leads nowhere (a link whose target is missing) is left out. -/
theorem C58_violated_link : ∃ openDir resolve path names, openDir path = some names ∧ names ≠ [] ∧
    list openDir resolve path = .ok (some []) :=
  ⟨fun _ => some [[97]], fun _ => none, [47], [[97]], rfl, by decide, by decide⟩

/-- **C58** is violated: the text of a path is copied into a buffer that is too small for it, if the name of the folder and the name of
the entry are together longer than a path may be. -/
theorem C58_violated_long (openDir : Text → Option (List Text)) (resolve : Text → Option Kind) (path n : Text) (names : List Text)
    (hp : ∀ c ∈ path, c ≠ 0) (h0 : path.length < 4096) (ho : openDir path = some (n :: names)) (hn : n.length ≤ 255)
    (hl : path.length + 1 + n.length > 4096) : list openDir resolve path = .ub := by
  have hs : stripped path = path := stripped_name ⟨by intro h; rw [h] at hl; simp at hl; omega, hp⟩
  unfold list
  rw [hs, if_neg (by unfold pathMax; omega), ho]
  dsimp only
  unfold listLoop
  rw [if_neg (by unfold pathMax; omega), if_pos (by unfold pathMax; omega)]
  rfl

/-- There are such folders: a name of 4000 bytes, an entry of 200. -/
example : let path : Text := List.replicate 4000 97
    let n : Text := List.replicate 200 98
    (∀ c ∈ path, c ≠ 0) ∧ path.length < 4096 ∧ n.length ≤ 255 ∧ path.length + 1 + n.length > 4096 := by
  intro path n
  refine ⟨fun c hc => ?_, ?_⟩
  · rw [List.eq_of_mem_replicate hc]; decide
  · rw [show path.length = 4000 from List.length_replicate, show n.length = 200 from List.length_replicate]
    decide

end Verif.Props.File
