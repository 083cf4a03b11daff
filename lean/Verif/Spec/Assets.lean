/-!
# Kinds of files, and how a shell reads a command

Independent of the model.
-/

namespace Verif.Spec.Assets

/-- A PNG file: the signature and then a part whose length (four bytes, the first part has 13 bytes) begins with a zero byte. -/
def Png (t : List UInt8) : Prop := ∃ r, t = [137, 80, 78, 71, 13, 10, 26, 10, 0] ++ r

/-- A JPEG file begins with a marker and the first byte of the next one. -/
def Jpeg (t : List UInt8) : Prop := ∃ r, t = [255, 216, 255] ++ r

/-- How a shell reads the words of a command, blanks and single quotes only. `q`: within quotes; `cur`: the word so far, if
one has begun. A quote that is not closed gives no words. -/
def words : Bool → Option (List UInt8) → List UInt8 → Option (List (List UInt8))
  | true, _, [] => none
  | false, none, [] => some []
  | false, some w, [] => some [w]
  | true, cur, c :: r => if c = 39 then words false cur r else words true (some (cur.getD [] ++ [c])) r
  | false, cur, c :: r =>
    if c = 39 then words true (some (cur.getD [])) r
    else if c = 32 then
      (match cur with
        | none => words false none r
        | some w => (words false none r).map (w :: ·))
    else words false (some (cur.getD [] ++ [c])) r

end Verif.Spec.Assets
