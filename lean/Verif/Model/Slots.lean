import Verif.Basic
import Verif.Spec.Slots

/-!
# Model of the tables of images, sounds and fonts of the media plugin

`plugins/media/media.c:94-149` (the tables), `1867-1906` (fonts), `2048-2090`, `2168-2198` (sounds and music), `2311-2422`
(images), `2974-2985` (writing), `1724-1739` and `1094-1137` (drawing). Left out: what SDL does with contents, the leak of
the texture when an image gets a second source, the fields of an image that are not named here. Opening a font belongs to
making it (`Font new source: … size: …`), so that a font object has one font; the font of an image is identified by the slot
of the font object. `ctr_internal_media_reset` runs when the program starts and ends only.
-/

namespace Verif.Model.Slots
open Verif.Spec.Slots (Op Ans)

/-- `texture` of a `MediaIMG` (`media.c:112`): `NULL`, a texture, or a pointer to a texture that has been destroyed. -/
inductive Tex where
  | null
  | live (c : Nat)
  | destroyed
  deriving DecidableEq, Repr

/-- `MediaIMG`, `media.c:94-120`. `surface` is `NULL` exactly if `texture` is (`media.c:2409`, `2413`). -/
structure Img where
  x : Int
  y : Int
  visible : Bool
  tex : Tex
  font : Option Nat
  deriving DecidableEq, Repr

/-- `MediaFNT`, `media.c:139-145`: the contents of the font and whether it is open. -/
structure Fnt where
  font : Nat
  isOpen : Bool
  deriving DecidableEq, Repr

/-- What the resource of an object points at (`media.c:2380-2382`, `1900-1903`, `2072-2074`); Nil has none. -/
inductive Ptr where
  | img (i : Nat)
  | aud (i : Nat)
  | fnt (i : Nat)
  | nil
  deriving DecidableEq, Repr

/-- The tables with their counters (`media.c:128-148`) and the objects made so far; an object that has been collected is
`none`. `auds` holds the `blob`s. -/
structure St where
  imgs : List Img
  imgCount : Nat
  auds : List (Option Nat)
  audCount : Nat
  fnts : List Fnt
  fntCount : Nat
  objs : List (Option Ptr)
  deriving DecidableEq, Repr

/-- A slot that was never used: zero (`media.c:128`). -/
def blankImg : Img := ⟨0, 0, false, .null, none⟩

/-- A font slot that was never used (`media.c:146`). -/
def blankFnt : Fnt := ⟨0, false⟩

/-- The start: `mediaIMGs[100]`, `mediaAUDs[50]`, `mediaFNT[10]` (`media.c:128`, `134`, `146`). -/
def init : St := ⟨List.replicate 100 blankImg, 0, List.replicate 50 none, 0, List.replicate 10 blankFnt, 0, []⟩

/-- What the object is (`ctr_internal_get_image_from_object` and the like, `media.c:200-213`). -/
def St.at (s : St) (o : Nat) : Option Ptr := (s.objs[o]?).join

/-- `ctr_img_new`, `media.c:2337-2385`: the next slot, without looking how many there are. -/
def newImage (s : St) : Out (St × Ans) :=
  if s.imgCount < s.imgs.length then
    .ok ({ s with
      imgs := s.imgs.set s.imgCount ⟨0, 0, true, .null, none⟩, imgCount := s.imgCount + 1, objs := s.objs ++ [some (.img s.imgCount)] },
      .obj s.objs.length)
  else .ub

/-- A change of an image (`media.c:2395-2422`, `2570-2581`, `2469-2473`). -/
def change (s : St) (o : Nat) (f : Img → Img) : Out (St × Ans) :=
  match s.at o with
  | some (.img i) =>
    match s.imgs[i]? with
    | some m => .ok ({ s with imgs := s.imgs.set i (f m) }, .self)
    | none => .ub
  | _ => .ok (s, .nonsense)

/-- `ctr_img_x` and `ctr_img_y`, `media.c:2582-2593`. -/
def whereIs (s : St) (o : Nat) : Out (St × Ans) :=
  match s.at o with
  | some (.img i) =>
    match s.imgs[i]? with
    | some m => .ok (s, .pos m.x m.y)
    | none => .ub
  | _ => .ok (s, .nonsense)

/-- `ctr_sound_new_set` from `media.c:2069` on and `ctr_music_new_set`, `2168-2189`: the next slot. The `blob` of a slot that
was never used is `NULL`, so that nothing is freed. If the file cannot be loaded there is an error; the slot is used up. -/
def newAudio (s : St) (c : Option Nat) : Out (St × Ans) :=
  if s.audCount < s.auds.length then
    .ok ({ s with
      auds := s.auds.set s.audCount c, audCount := s.audCount + 1, objs := s.objs ++ [some (.aud s.audCount)] },
      match c with
      | some _ => .obj s.objs.length
      | none => .failed)
  else .ub

/-- `ctr_sound_new_set`, `media.c:2067-2090`: refuses when the table is full. -/
def newSound (s : St) (c : Option Nat) : Out (St × Ans) :=
  if s.audCount ≥ 50 then .ok ({ s with objs := s.objs ++ [some .nil] }, .refused) else newAudio s c

/-- `ctr_sound_play` and `ctr_music_play`, `media.c:2092-2099`, `2191-2198`. -/
def play (s : St) (o : Nat) : Out (St × Ans) :=
  match s.at o with
  | some (.aud i) =>
    match s.auds[i]? with
    | some (some c) => .ok (s, .heard c)
    | some none => .ok (s, .self)
    | none => .ub
  | _ => .ok (s, .nonsense)

/-- `ctr_font_new`, `media.c:1890-1905`, with `ctr_font_font`, `1933-1957`. -/
def newFont (s : St) (c : Nat) : Out (St × Ans) :=
  if s.fntCount ≥ 10 then .ok ({ s with objs := s.objs ++ [some .nil] }, .refused)
  else if s.fntCount < s.fnts.length then
    .ok ({ s with
      fnts := s.fnts.set s.fntCount ⟨c, true⟩, fntCount := s.fntCount + 1, objs := s.objs ++ [some (.fnt s.fntCount)] },
      .obj s.objs.length)
  else .ub

/-- `ctr_img_font`, `media.c:2742-2748`: the font of the other object, whether it has one or not. With other objects that
are no fonts, which a program would not give, this model says that the message is nonsense. -/
def useFont (s : St) (o f : Nat) : Out (St × Ans) :=
  match s.at o, s.at f with
  | some (.img i), some (.fnt k) =>
    match s.imgs[i]? with
    | some m => .ok ({ s with imgs := s.imgs.set i { m with font := some k } }, .self)
    | none => .ub
  | some (.img _), some .nil => .ub
  | _, _ => .ok (s, .nonsense)

/-- The beginning of `ctr_internal_img_render_text`, `media.c:2974-2987`: nothing without a surface, the end of the process
without a font, undefined with a font that is closed. -/
def write (s : St) (o : Nat) : Out (St × Ans) :=
  match s.at o with
  | some (.img i) =>
    match s.imgs[i]? with
    | some m =>
      if m.tex = .null then .ok (s, .self)
      else
        match m.font with
        | none => .exit
        | some k =>
          match s.fnts[k]? with
          | some ⟨c, true⟩ => .ok (s, .face c)
          | _ => .ub
    | none => .ub
  | _ => .ok (s, .nonsense)

/-- The destructors: `ctr_img_destructor` (`media.c:2311-2324`), `ctr_sound_destructor` and `ctr_music_destructor`
(`2054-2064`), `ctr_font_destructor` (`1867-1888`), which takes the font away from all the images. -/
def collect (s : St) (o : Nat) : Out (St × Ans) :=
  match s.at o with
  | some (.img i) =>
    match s.imgs[i]? with
    | some m =>
      .ok ({ s with
        imgs := s.imgs.set i { m with tex := (if m.tex = .null then .null else .destroyed), font := none }, objs := s.objs.set o none },
        .self)
    | none => .ub
  | some (.aud _) => .ok ({ s with objs := s.objs.set o none }, .self)
  | some (.fnt k) =>
    match s.fnts[k]? with
    | some f =>
      .ok ({ s with
        imgs := s.imgs.map (fun m => if m.font = some k then { m with font := none } else m), fnts := s.fnts.set k { f with isOpen := false },
        objs := s.objs.set o none }, .self)
    | none => .ub
  | _ => .ok (s, .nonsense)

/-- Drawing the slots that are in use (`media.c:1724-1739`, `1094-1137`): a texture that has been destroyed is used all the
same. -/
def scene : List Img → Out (List (Nat × Int × Int))
  | [] => .ok []
  | m :: l =>
    if m.visible then
      match m.tex with
      | .null => scene l
      | .live c => (scene l).bind fun r => .ok ((c, m.x, m.y) :: r)
      | .destroyed => .ub
    else scene l

/-- One thing that a program does (`media.c:1724-1739`, `2067-2749`). -/
def step (s : St) : Op → Out (St × Ans)
  | .newImage => newImage s
  | .source o c => change s o fun m => { m with tex := .live c }
  | .place o x y => change s o fun m => { m with x := x, y := y }
  | .whereIs o => whereIs s o
  | .show_ o b => change s o fun m => { m with visible := b }
  | .newSound c => newSound s c
  | .newMusic c => newAudio s c
  | .play o => play s o
  | .newFont c => newFont s c
  | .useFont o f => useFont s o f
  | .write o => write s o
  | .collect o => collect s o
  | .draw => (scene (s.imgs.take s.imgCount)).bind fun l => .ok (s, .scene l)

/-- A whole history (`media.c:1724-1739`, `2067-2749`, one after the other): what the program gets. -/
def run (s : St) : List Op → Out (List Ans)
  | [] => .ok []
  | op :: l => (step s op).bind fun r => (run r.1 l).bind fun a => .ok (r.2 :: a)

end Verif.Model.Slots
