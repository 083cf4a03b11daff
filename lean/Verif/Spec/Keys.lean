/-!
# What a user may expect of the arrow keys
-/

namespace Verif.Spec.Keys

/-- The arrow keys. -/
inductive Key where
  | left | right | up | down
  deriving DecidableEq, Repr

/-- What happens: an arrow key is pressed (or repeated) or released, the program freezes the keys or not, a shift key, a mouse
button (on a text field or not; twice or not), a frame is drawn. -/
inductive Ev where
  | press (k : Key)
  | release (k : Key)
  | freeze (b : Bool)
  | shiftDown
  | shiftUp
  | mouseDown (field twice : Bool)
  | mouseUp
  | frame
  deriving DecidableEq, Repr

/-- The keys that are held, the last one pressed first. -/
def held : List Key → Ev → List Key
  | l, .press k => k :: l.filter (· ≠ k)
  | l, .release k => l.filter (· ≠ k)
  | l, _ => l

/-- The keys held after some events. -/
def heldAfter (h : List Ev) : List Key := h.foldl held []

/-- Where a key leads the player, in degrees: across in modes 1 and 3, up and down in mode 2 and, for a player that does not
fall, in mode 1. -/
def heading (mode : Int) (falls : Bool) : Key → Option Int
  | .left => if mode = 1 ∨ mode = 3 then some 180 else none
  | .right => if mode = 1 ∨ mode = 3 then some 0 else none
  | .up => if mode = 2 ∨ (mode = 1 ∧ falls = false) then some 90 else none
  | .down => if mode = 2 ∨ (mode = 1 ∧ falls = false) then some 270 else none

/-- At most one key is held at any time, only held keys are released, and the program and the user leave the keys to the player. -/
def OneAtATime : List Key → List Ev → Prop
  | _, [] => True
  | l, e :: h => (held l e).length ≤ 1 ∧ (∀ k, e = .release k → k ∈ l) ∧ (∀ b, e ≠ .freeze b) ∧ (∀ t, e ≠ .mouseDown true t) ∧ OneAtATime (held l e) h

/-- The keys are left to the player: they are not frozen, and no text field is clicked on. -/
def Free (h : List Ev) : Prop := ∀ e ∈ h, (∀ b, e ≠ .freeze b) ∧ ∀ t, e ≠ .mouseDown true t

/-- The direction that the keys ask for: that of the last one pressed that leads anywhere. -/
def asked (mode : Int) (falls : Bool) (l : List Key) : Int := (l.findSome? (heading mode falls)).getD (-1)

/-- A shift key is not pressed before a text field has been clicked on. -/
def fieldFirst : List Ev → Bool
  | [] => true
  | .mouseDown true _ :: _ => true
  | .shiftDown :: _ => false
  | _ :: h => fieldFirst h

end Verif.Spec.Keys
