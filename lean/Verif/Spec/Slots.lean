/-!
# What a program may expect of its images, sounds, pieces of music and fonts

Every object that a program makes is a thing of its own: what is done to one does not show in another, a thing stays what it
was made until the program changes it, and a window shows the images that the program has, in the order in which they were
made. Objects are numbered in the order in which they are made.
-/

namespace Verif.Spec.Slots

/-- What a program does. The numbers `c` stand for the contents of files. -/
inductive Op where
  /-- `Image new` -/
  | newImage
  /-- `image source: c` -/
  | source (o c : Nat)
  /-- `image x: x y: y` -/
  | place (o : Nat) (x y : Int)
  /-- `image x?` and `image y?` -/
  | whereIs (o : Nat)
  /-- `image visible: b` -/
  | show_ (o : Nat) (b : Bool)
  /-- `Sound new: c`; without contents there is no such file -/
  | newSound (c : Option Nat)
  /-- `Music new: c` -/
  | newMusic (c : Option Nat)
  /-- `sound play` or `music play` -/
  | play (o : Nat)
  /-- `Font new source: c size: …` -/
  | newFont (c : Nat)
  /-- `image font: f` -/
  | useFont (o f : Nat)
  /-- the image writes its text -/
  | write (o : Nat)
  /-- nothing refers to the object any more, and the collector takes it away -/
  | collect (o : Nat)
  /-- the window is drawn -/
  | draw
  deriving DecidableEq, Repr

/-- What a program gets, hears or sees. -/
inductive Ans where
  /-- a new object -/
  | obj (o : Nat)
  /-- Nil: no further object of this kind -/
  | refused
  /-- an error -/
  | failed
  /-- the receiver -/
  | self
  /-- a position -/
  | pos (x y : Int)
  /-- what is heard -/
  | heard (c : Nat)
  /-- the font in which the text is written -/
  | face (c : Nat)
  /-- what is seen: contents and positions -/
  | scene (l : List (Nat × Int × Int))
  /-- no such message -/
  | nonsense
  deriving DecidableEq, Repr

/-- An image: where it is, whether it is visible, what it shows, its font (the number of the object), whether the program
still has it. -/
structure Image where
  x : Int
  y : Int
  shown : Bool
  src : Option Nat
  font : Option Nat
  held : Bool
  deriving DecidableEq, Repr

/-- The things a program has made. -/
inductive Thing where
  | image (i : Image)
  | sound (c : Option Nat) (held : Bool)
  | font (c : Nat) (held : Bool)
  | refused
  deriving DecidableEq, Repr

/-- Is it an image? -/
def isImage : Thing → Bool
  | .image _ => true
  | _ => false

/-- Is it a sound or a piece of music? -/
def isSound : Thing → Bool
  | .sound _ _ => true
  | _ => false

/-- Is it a font? -/
def isFont : Thing → Bool
  | .font _ _ => true
  | _ => false

/-- What is seen of an image. -/
def seen : Thing → Option (Nat × Int × Int)
  | .image ⟨x, y, true, some c, _, true⟩ => some (c, x, y)
  | _ => none

/-- An image loses the font `f`. -/
def lose (f : Nat) : Thing → Thing
  | .image i => if i.font = some f then .image { i with font := none } else .image i
  | t => t

/-- One thing that a program does. -/
def step (w : List Thing) : Op → List Thing × Ans
  | .newImage =>
    if w.countP isImage < 100 then (w ++ [.image ⟨0, 0, true, none, none, true⟩], .obj w.length) else (w ++ [.refused], .refused)
  | .source o c =>
    match w[o]? with
    | some (.image i) => if i.held then (w.set o (.image { i with src := some c }), .self) else (w, .nonsense)
    | _ => (w, .nonsense)
  | .place o x y =>
    match w[o]? with
    | some (.image i) => if i.held then (w.set o (.image { i with x := x, y := y }), .self) else (w, .nonsense)
    | _ => (w, .nonsense)
  | .whereIs o =>
    match w[o]? with
    | some (.image i) => if i.held then (w, .pos i.x i.y) else (w, .nonsense)
    | _ => (w, .nonsense)
  | .show_ o b =>
    match w[o]? with
    | some (.image i) => if i.held then (w.set o (.image { i with shown := b }), .self) else (w, .nonsense)
    | _ => (w, .nonsense)
  | .newSound c | .newMusic c =>
    if w.countP isSound < 50 then
      match c with
      | some _ => (w ++ [.sound c true], .obj w.length)
      | none => (w ++ [.sound none true], .failed)
    else (w ++ [.refused], .refused)
  | .play o =>
    match w[o]? with
    | some (.sound c true) => (w, match c with | some c => .heard c | none => .self)
    | _ => (w, .nonsense)
  | .newFont c =>
    if w.countP isFont < 10 then (w ++ [.font c true], .obj w.length) else (w ++ [.refused], .refused)
  | .useFont o f =>
    match w[o]?, w[f]? with
    | some (.image i), some (.font _ true) =>
      if i.held then (w.set o (.image { i with font := some f }), .self) else (w, .nonsense)
    | some (.image i), some .refused => if i.held then (w, .self) else (w, .nonsense)
    | _, _ => (w, .nonsense)
  | .write o =>
    match w[o]? with
    | some (.image i) =>
      if i.held then
        match i.src, i.font with
        | some _, some f => (w, match w[f]? with | some (.font c _) => .face c | _ => .self)
        | _, _ => (w, .self)
      else (w, .nonsense)
    | _ => (w, .nonsense)
  | .collect o =>
    match w[o]? with
    | some (.image i) => if i.held then (w.set o (.image { i with font := none, held := false }), .self) else (w, .nonsense)
    | some (.sound c true) => (w.set o (.sound c false), .self)
    | some (.font c true) => ((w.set o (.font c false)).map (lose o), .self)
    | _ => (w, .nonsense)
  | .draw => (w, .scene (w.filterMap seen))

/-- A whole history: what the program gets. -/
def run (w : List Thing) : List Op → List Ans
  | [] => []
  | op :: l => (step w op).2 :: run (step w op).1 l

/-- An image that is lost shows nothing or is not visible. -/
def neat : Thing → Bool
  | .image ⟨_, _, true, some _, _, held⟩ => held
  | _ => true

/-- An image that shows something has a font. -/
def canWrite : Thing → Bool
  | .image ⟨_, _, _, some _, none, true⟩ => false
  | _ => true

/-- What a program must not do for this to be so: make a 101st image or, after 50 sounds and pieces of music, a piece of
music; use what it got instead of a font; write with an image that has no font; draw after it has lost an image that is
visible and shows something. -/
def Fits (w : List Thing) : Op → Prop
  | .newImage => w.countP isImage < 100
  | .newMusic _ => w.countP isSound < 50
  | .useFont _ f => w[f]? ≠ some .refused
  | .write o => (w[o]?).all canWrite = true
  | .draw => w.all neat = true
  | _ => True

instance (w : List Thing) (op : Op) : Decidable (Fits w op) := by
  cases op <;> unfold Fits <;> infer_instance

/-- A history of such things. -/
def AllFit (w : List Thing) : List Op → Prop
  | [] => True
  | op :: l => Fits w op ∧ AllFit (step w op).1 l

instance decAllFit (w : List Thing) (l : List Op) : Decidable (AllFit w l) :=
  match l with
  | [] => isTrue trivial
  | op :: l => have := decAllFit (step w op).1 l; inferInstanceAs (Decidable (_ ∧ _))

/-- What the specification makes of a history. -/
def after (w : List Thing) : List Op → List Thing
  | [] => w
  | op :: l => after (step w op).1 l

/-- Does it move the object or take it away? -/
def touches (o : Nat) : Op → Bool
  | .place o' _ _ => o' == o
  | .collect o' => o' == o
  | _ => false

/-- How many sounds and pieces of music a history asks for. -/
def asks : Op → Bool
  | .newSound _ => true
  | .newMusic _ => true
  | _ => false

end Verif.Spec.Slots
