import Verif.Basic
import Verif.Model.Text

/-!
# Searching and replacing with patterns (`plugins/regex/regex.c`)

The functions of the C library are parameters of the model: compiling a pattern, and searching in a text. The block given
to `process:do:options:` is a function of a state (whatever it can see and change).

Simplifications: the memory of temporary texts and the marks for the garbage collector are left out
(`plugins/regex/regex.c:112-134`); allocation succeeds.
-/

namespace Verif.Model.Rx
open Verif.Model

/-- Start and end of a group, `regmatch_t`; `none` stands for -1 in both. -/
abbrev Group := Option (Nat × Nat)

/-- A compiled pattern, as `regexec` sees it: what it finds in a text (`none`: no match). `regexec` fills the entries that
belong to no group with -1. -/
abbrev Search := Text → Option (List Group)

/-- `regcomp`: from the pattern and the flags for lines (`REG_NEWLINE`) and for lower and upper case (`REG_ICASE`). -/
abbrev Compile := Text → Bool → Bool → Option Search

/-- The block: from the state and the groups to the text of its answer, whether it left an error behind, and the state
afterwards. -/
abbrev Block (σ : Type) := σ → List Text → Text × Bool × σ

/-- `ctr_heap_allocate_cstring`, `memory.c:264-281`: NUL bytes are left out. -/
def cstring (t : Text) : Text := t.filter (· != 0)

/-- Whether an option is set, `plugins/regex/regex.c:49-64`: the length of the options is kept in 8 bits. -/
def option (c : UInt8) (o : Text) : Bool := ((cstring o).take ((cstring o).length % 256)).contains c

/-- The texts of the groups, `plugins/regex/regex.c:93-104`: up to the first group that took no part in the match, at
most 255. Bytes beyond the text are `ub`. -/
def groups (hay : Text) : List Group → Nat → Out (List Text)
  | [], _ => .ok []
  | _ :: _, 0 => .ok []
  | none :: _, _ + 1 => .ok []
  | some (a, b) :: gs, n + 1 =>
    if b < a ∨ hay.length < b then .ub
    else (groups hay gs n).bind fun r => .ok ((hay.take b).drop a :: r)

/-- State of the loop of `ctr_regex_find_pattern_options_do`: what is left of the text (`haystack + offset`), the new
text, whether there is an error, and the state of the block. -/
structure St (σ : Type) where
  hay : Text
  new : Text
  err : Bool
  st : σ

/-- One round of the loop, `plugins/regex/regex.c:86-134`; `none` if the loop ends. -/
def round {σ : Type} (search : Search) (block : Block σ) (s : St σ) : Out (Option (St σ)) :=
  match search s.hay with
  | none => .ok none
  | some gs =>
    (groups s.hay gs 255).bind fun args =>
      match gs.head? with
      | some (some (a, b)) =>
        match block s.st args with
        | (r, e, st) => .ok (some ⟨s.hay.drop b, s.new ++ s.hay.take a ++ r, s.err || e, st⟩)
      | _ =>
        match block s.st args with
        | (r, e, st) => .ok (some ⟨s.hay, s.new ++ r, s.err || e, st⟩)

/-- The loop, `plugins/regex/regex.c:85-135`, for a number of rounds: `none` if it has not ended by then. -/
def loop {σ : Type} (search : Search) (block : Block σ) : Nat → St σ → Out (Option (St σ))
  | 0, _ => .ok none
  | n + 1, s => (round search block s).bind fun
    | none => .ok (some s)
    | some s => loop search block n s

/-- What a message answers: a text, a truth value, nothing; and whether there is an error afterwards. -/
inductive Answer where
  | text (t : Text)
  | truth (b : Bool)
  | self
  | nil
  deriving DecidableEq

/-- `ctr_regex_find_pattern_options_do`, `plugins/regex/regex.c:33-145`, for a number of rounds. The first argument has to
be a text, the options are turned into a text; a second argument that is not a block (`none`) is an error. -/
def process {σ : Type} (comp : Compile) (pattern : Text) (hay : Option Text) (block : Option (Block σ)) (options : Text)
    (st : σ) (rounds : Nat) : Out (Option (Answer × Bool × σ)) :=
  match block with
  | none => .ok (some (.self, true, st))
  | some block =>
    match comp (cstring pattern) (option 110 options) (option 105 options) with
    | none => .ok (some (.nil, true, st))
    | some search =>
      match hay with
      | none => .ub
      | some hay =>
        if option 33 options then .ok (some (.text (cstring hay), false, st))
        else
          (loop search block rounds ⟨cstring hay, [], false, st⟩).bind fun
            | none => .ok none
            | some s => .ok (some (.text (s.new ++ s.hay), s.err, s.st))

/-- `ctr_regex_find_pattern_do`, `plugins/regex/regex.c:147-154`: without options. -/
def processPlain {σ : Type} (comp : Compile) (pattern : Text) (hay : Option Text) (block : Option (Block σ)) (st : σ)
    (rounds : Nat) : Out (Option (Answer × Bool × σ)) :=
  process comp pattern hay block [] st rounds

/-- `ctr_regex_matches`, `plugins/regex/regex.c:157-191`: a pattern that cannot be compiled is an error (`regfree` of it
is undefined). That `regexec` runs out of memory is left out. -/
def isMatch (comp : Compile) (pattern hay : Text) : Out (Answer × Bool) :=
  match comp (cstring pattern) false false with
  | none => .ub
  | some search =>
    match search (cstring hay) with
    | some _ => .ok (.truth true, false)
    | none => .ok (.truth false, false)

end Verif.Model.Rx
