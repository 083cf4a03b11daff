import Verif.Model.Slots

/-!
# Lemmas about tables of images, sounds and fonts
-/

namespace Verif.Lemmas.Slots
open Verif.Model.Slots Verif.Spec.Slots
open Verif (Out)

/-! ## Positions in a filtered list -/

/-- How many elements before `o` have the property. -/
def rank (p : α → Bool) (w : List α) (o : Nat) : Nat := (w.take o).countP p

theorem filterMap_get {f : α → Option β} {p : α → Bool} (hp : ∀ t, p t = (f t).isSome) {w : List α} {o : Nat} {t : α} {y : β}
    (h : w[o]? = some t) (hf : f t = some y) : (w.filterMap f)[rank p w o]? = some y := by
  induction w generalizing o with
  | nil => simp at h
  | cons a w ih =>
    cases o with
    | zero =>
      simp at h
      subst h
      simp [rank, hf]
    | succ o =>
      have h2 : w[o]? = some t := by simpa using h
      have := ih h2
      cases hfa : f a with
      | none =>
        have hpa : p a = false := by rw [hp, hfa]; rfl
        simp only [rank, List.take_succ_cons, List.countP_cons, hpa, List.filterMap_cons, hfa]
        simpa [rank] using this
      | some b =>
        have hpa : p a = true := by rw [hp, hfa]; rfl
        simp only [rank, List.take_succ_cons, List.countP_cons, hpa, List.filterMap_cons, hfa, if_true]
        simpa [rank] using this

theorem filterMap_set {f : α → Option β} {p : α → Bool} (hp : ∀ t, p t = (f t).isSome) {w : List α} {o : Nat} {t t' : α} {y y' : β}
    (h : w[o]? = some t) (hf : f t = some y) (hf' : f t' = some y') :
    (w.set o t').filterMap f = (w.filterMap f).set (rank p w o) y' := by
  induction w generalizing o with
  | nil => simp at h
  | cons a w ih =>
    cases o with
    | zero =>
      simp at h
      subst h
      simp [rank, hf, hf']
    | succ o =>
      have h2 : w[o]? = some t := by simpa using h
      have := ih h2
      cases hfa : f a with
      | none =>
        have hpa : p a = false := by rw [hp, hfa]; rfl
        simp only [List.set_cons_succ, rank, List.take_succ_cons, List.countP_cons, hpa, List.filterMap_cons, hfa]
        simpa [rank] using this
      | some b =>
        have hpa : p a = true := by rw [hp, hfa]; rfl
        simp only [List.set_cons_succ, rank, List.take_succ_cons, List.countP_cons, hpa, List.filterMap_cons, hfa, if_true]
        simpa [rank] using this

theorem filterMap_set_none {f : α → Option β} {w : List α} {o : Nat} {t t' : α} (h : w[o]? = some t) (hf : f t = none)
    (hf' : f t' = none) : (w.set o t').filterMap f = w.filterMap f := by
  induction w generalizing o with
  | nil => simp at h
  | cons a w ih =>
    cases o with
    | zero =>
      simp at h
      subst h
      simp [hf, hf']
    | succ o =>
      have h2 : w[o]? = some t := by simpa using h
      simp only [List.set_cons_succ, List.filterMap_cons, ih h2]

theorem rank_set {p : α → Bool} {w : List α} {o : Nat} {t t' : α} (h : w[o]? = some t) (hp : p t = p t') (k : Nat) :
    rank p (w.set o t') k = rank p w k := by
  induction w generalizing o k with
  | nil => simp at h
  | cons a w ih =>
    cases k with
    | zero => rfl
    | succ k =>
      cases o with
      | zero =>
        simp at h
        subst h
        simp [rank, hp, List.countP_cons]
      | succ o =>
        have h2 : w[o]? = some t := by simpa using h
        have := ih h2 k
        simp only [rank] at this
        simp [rank, this, List.countP_cons]

theorem rank_append {p : α → Bool} {w l : List α} {o : Nat} (h : o ≤ w.length) : rank p (w ++ l) o = rank p w o := by
  simp [rank, List.take_append_of_le_length h]

theorem rank_length {p : α → Bool} {w : List α} : rank p w w.length = w.countP p := by simp [rank]

theorem rank_lt {p : α → Bool} {w : List α} {o k : Nat} {t : α} (h : w[o]? = some t) (hp : p t = true) (hk : o < k) :
    rank p w o < rank p w k := by
  induction w generalizing o k with
  | nil => simp at h
  | cons a w ih =>
    cases k with
    | zero => omega
    | succ k =>
      cases o with
      | zero =>
        simp at h
        subst h
        simp [rank, hp]
      | succ o =>
        have h2 : w[o]? = some t := by simpa using h
        have := ih h2 (by omega : o < k)
        simp only [rank] at this
        simp only [rank, List.take_succ_cons, List.countP_cons]
        omega

theorem rank_inj {p : α → Bool} {w : List α} {o k : Nat} {t u : α} (h : w[o]? = some t) (hp : p t = true) (h2 : w[k]? = some u)
    (hp2 : p u = true) (he : rank p w o = rank p w k) : o = k := by
  rcases Nat.lt_trichotomy o k with h3 | h3 | h3
  · have := rank_lt h hp h3
    omega
  · exact h3
  · have := rank_lt h2 hp2 h3
    omega

theorem rank_lt_count {p : α → Bool} {w : List α} {o : Nat} {t : α} (h : w[o]? = some t) (hp : p t = true) :
    rank p w o < w.countP p := by
  have := rank_lt h hp (List.getElem?_eq_some_iff.1 h).1
  rwa [rank_length] at this

theorem filterMap_length {f : α → Option β} {p : α → Bool} (hp : ∀ t, p t = (f t).isSome) (w : List α) :
    (w.filterMap f).length = w.countP p := by
  induction w with
  | nil => rfl
  | cons a w ih => cases h : f a <;> simp [h, hp, ih]

theorem filterMap_same {f g : α → Option β} {w : List α} (h : ∀ t ∈ w, f t = g t) : w.filterMap f = w.filterMap g := by
  induction w with
  | nil => rfl
  | cons a w ih =>
    rw [List.filterMap_cons, List.filterMap_cons, h a (by simp), ih fun t ht => h t (List.mem_cons_of_mem _ ht)]

theorem filterMap_snoc {f : α → Option β} {w : List α} {t : α} (h : f t = none) : (w ++ [t]).filterMap f = w.filterMap f := by
  simp [h]

theorem countP_set {p : α → Bool} {w : List α} {o : Nat} {t t' : α} (h : w[o]? = some t) (hp : p t = p t') :
    (w.set o t').countP p = w.countP p := by
  have := rank_set (p := p) h hp w.length
  rw [rank_length] at this
  rw [← this, rank, List.take_of_length_le (by simp)]

/-! ## What the tables hold -/

/-- The texture of an image. -/
def texOf (i : Image) : Tex :=
  match i.src with
  | none => .null
  | some c => if i.held then .live c else .destroyed

/-- The slot of an image. -/
def toImg (r : Nat → Nat) : Thing → Option Img
  | .image i => some ⟨i.x, i.y, i.shown, texOf i, i.font.map r⟩
  | _ => none

/-- The slot of a sound. -/
def toAud : Thing → Option (Option Nat)
  | .sound c _ => some c
  | _ => none

/-- The slot of a font. -/
def toFnt : Thing → Option Fnt
  | .font c b => some ⟨c, b⟩
  | _ => none

theorem isImage_eq (r : Nat → Nat) (t : Thing) : isImage t = (toImg r t).isSome := by cases t <;> rfl

theorem isSound_eq (t : Thing) : isSound t = (toAud t).isSome := by cases t <;> rfl

theorem isFont_eq (t : Thing) : isFont t = (toFnt t).isSome := by cases t <;> rfl

/-- The resource of an object. -/
def ptr (w : List Thing) (o : Nat) : Thing → Option Ptr
  | .image i => if i.held then some (.img (rank isImage w o)) else none
  | .sound _ b => if b then some (.aud (rank isSound w o)) else none
  | .font _ b => if b then some (.fnt (rank isFont w o)) else none
  | .refused => some .nil

/-- The tables hold the things of the program. -/
structure Sim (s : St) (w : List Thing) : Prop where
  imgs : s.imgs = w.filterMap (toImg (rank isFont w)) ++ List.replicate (100 - w.countP isImage) blankImg
  imgCount : s.imgCount = w.countP isImage
  imgMax : w.countP isImage ≤ 100
  auds : s.auds = w.filterMap toAud ++ List.replicate (50 - w.countP isSound) none
  audCount : s.audCount = w.countP isSound
  audMax : w.countP isSound ≤ 50
  fnts : s.fnts = w.filterMap toFnt ++ List.replicate (10 - w.countP isFont) blankFnt
  fntCount : s.fntCount = w.countP isFont
  fntMax : w.countP isFont ≤ 10
  len : s.objs.length = w.length
  objs : ∀ o : Nat, s.objs[o]? = (w[o]?).map (ptr w o)
  fonts : ∀ t ∈ w, ∀ i, t = .image i → ∀ f, i.font = some f → ∃ c, w[f]? = some (.font c true)

theorem sim_init : Sim init [] := by
  refine ⟨rfl, rfl, by decide, rfl, rfl, by decide, rfl, rfl, by decide, rfl, ?_, ?_⟩
  · intro o
    simp [init]
  · simp

theorem Sim.at_eq {s : St} {w : List Thing} (h : Sim s w) (o : Nat) : s.at o = (w[o]?).bind (ptr w o) := by
  rw [St.at, h.objs]
  cases w[o]? <;> rfl

theorem Sim.img {s : St} {w : List Thing} (h : Sim s w) {o : Nat} {i : Image} (hw : w[o]? = some (.image i)) :
    s.imgs[rank isImage w o]? = some ⟨i.x, i.y, i.shown, texOf i, i.font.map (rank isFont w)⟩ := by
  have h1 := filterMap_get (isImage_eq (rank isFont w)) hw (y := ⟨i.x, i.y, i.shown, texOf i, i.font.map (rank isFont w)⟩) rfl
  rw [h.imgs, List.getElem?_append_left (by
    rw [filterMap_length (isImage_eq _)]
    exact rank_lt_count hw rfl), h1]

theorem Sim.aud {s : St} {w : List Thing} (h : Sim s w) {o : Nat} {c : Option Nat} {b : Bool} (hw : w[o]? = some (.sound c b)) :
    s.auds[rank isSound w o]? = some c := by
  have h1 := filterMap_get isSound_eq hw (y := c) rfl
  rw [h.auds, List.getElem?_append_left (by
    rw [filterMap_length isSound_eq]
    exact rank_lt_count hw rfl), h1]

theorem Sim.fnt {s : St} {w : List Thing} (h : Sim s w) {o : Nat} {c : Nat} {b : Bool} (hw : w[o]? = some (.font c b)) :
    s.fnts[rank isFont w o]? = some ⟨c, b⟩ := by
  have h1 := filterMap_get isFont_eq hw (y := ⟨c, b⟩) rfl
  rw [h.fnts, List.getElem?_append_left (by
    rw [filterMap_length isFont_eq]
    exact rank_lt_count hw rfl), h1]

theorem set_append_left {l r : List α} {i : Nat} {a : α} (h : i < l.length) : (l ++ r).set i a = l.set i a ++ r := by
  rw [List.set_append]
  simp [h]

/-- Changing an image. -/
theorem Sim.set_image {s : St} {w : List Thing} (h : Sim s w) {o : Nat} {i i' : Image} (hw : w[o]? = some (.image i))
    (hheld : i'.held = i.held) (hf : ∀ f, i'.font = some f → ∃ c, w[f]? = some (.font c true)) :
    Sim { s with imgs := s.imgs.set (rank isImage w o) ⟨i'.x, i'.y, i'.shown, texOf i', i'.font.map (rank isFont w)⟩ }
      (w.set o (.image i')) := by
  have hlt := (List.getElem?_eq_some_iff.1 hw).1
  have hr : ∀ p : Thing → Bool, p (.image i) = p (.image i') → rank p (w.set o (.image i')) = rank p w :=
    fun p hp => funext fun k => rank_set hw hp k
  refine ⟨?_, ?_, ?_, ?_, ?_, ?_, ?_, ?_, ?_, ?_, ?_, ?_⟩
  · show s.imgs.set _ _ = _
    rw [hr isFont rfl, countP_set (t' := .image i') hw rfl, filterMap_set (t' := .image i') (isImage_eq _) hw rfl rfl, h.imgs, set_append_left]
    rw [filterMap_length (isImage_eq _)]
    exact rank_lt_count hw rfl
  · rw [countP_set (t' := .image i') hw rfl]
    exact h.imgCount
  · rw [countP_set (t' := .image i') hw rfl]
    exact h.imgMax
  · rw [countP_set (t' := .image i') hw rfl, filterMap_set_none (t' := .image i') hw rfl rfl]
    exact h.auds
  · rw [countP_set (t' := .image i') hw rfl]
    exact h.audCount
  · rw [countP_set (t' := .image i') hw rfl]
    exact h.audMax
  · rw [countP_set (t' := .image i') hw rfl, filterMap_set_none (t' := .image i') hw rfl rfl]
    exact h.fnts
  · rw [countP_set (t' := .image i') hw rfl]
    exact h.fntCount
  · rw [countP_set (t' := .image i') hw rfl]
    exact h.fntMax
  · rw [List.length_set]
    exact h.len
  · intro k
    show s.objs[k]? = _
    rw [h.objs]
    by_cases hk : o = k
    · subst hk
      rw [List.getElem?_set_self hlt, hw]
      simp only [Option.map_some, ptr, hheld, hr isImage rfl]
    · rw [List.getElem?_set_ne hk]
      cases hwk : w[k]? with
      | none => rfl
      | some t => cases t <;> simp only [Option.map_some, ptr, hr isImage rfl, hr isSound rfl, hr isFont rfl]
  · intro t ht j hj f hjf
    have hfont : ∀ (f c : Nat), w[f]? = some (Thing.font c true) → (w.set o (.image i'))[f]? = some (Thing.font c true) := by
      intro f c hc
      have : o ≠ f := by
        intro he
        rw [he, hc] at hw
        cases hw
      rw [List.getElem?_set_ne this, hc]
    rcases List.mem_or_eq_of_mem_set ht with h1 | h1
    · obtain ⟨c, hc⟩ := h.fonts t h1 j hj f hjf
      exact ⟨c, hfont f c hc⟩
    · rw [hj] at h1
      cases h1
      obtain ⟨c, hc⟩ := hf f hjf
      exact ⟨c, hfont f c hc⟩

/-- One more thing. -/
theorem Sim.append {s : St} {w : List Thing} (h : Sim s w) (t : Thing) (s' : St)
    (hnew : ∀ i, t = .image i → i.font = none)
    (himgs : s'.imgs = (w ++ [t]).filterMap (toImg (rank isFont w)) ++ List.replicate (100 - (w ++ [t]).countP isImage) blankImg)
    (himgCount : s'.imgCount = (w ++ [t]).countP isImage) (himgMax : (w ++ [t]).countP isImage ≤ 100)
    (hauds : s'.auds = (w ++ [t]).filterMap toAud ++ List.replicate (50 - (w ++ [t]).countP isSound) none)
    (haudCount : s'.audCount = (w ++ [t]).countP isSound) (haudMax : (w ++ [t]).countP isSound ≤ 50)
    (hfnts : s'.fnts = (w ++ [t]).filterMap toFnt ++ List.replicate (10 - (w ++ [t]).countP isFont) blankFnt)
    (hfntCount : s'.fntCount = (w ++ [t]).countP isFont) (hfntMax : (w ++ [t]).countP isFont ≤ 10)
    (hobjs : s'.objs = s.objs ++ [ptr w w.length t]) : Sim s' (w ++ [t]) := by
  refine ⟨?_, himgCount, himgMax, hauds, haudCount, haudMax, hfnts, hfntCount, hfntMax, ?_, ?_, ?_⟩
  · rw [himgs]
    congr 1
    apply filterMap_same
    intro u hu
    cases u with
    | image i =>
      simp only [toImg]
      cases hif : i.font with
      | none => rfl
      | some f =>
        rcases List.mem_append.1 hu with h1 | h1
        · obtain ⟨c, hc⟩ := h.fonts _ h1 i rfl f hif
          simp only [Option.map_some]
          rw [rank_append (Nat.le_of_lt (List.getElem?_eq_some_iff.1 hc).1)]
        · have := hnew i (List.mem_singleton.1 h1).symm
          rw [this] at hif
          cases hif
    | _ => rfl
  · rw [hobjs]
    simp [h.len]
  · intro o
    rw [hobjs]
    rcases Nat.lt_trichotomy o w.length with h1 | h1 | h1
    · rw [List.getElem?_append_left (by rw [h.len]; exact h1), List.getElem?_append_left h1, h.objs]
      rw [List.getElem?_eq_getElem h1]
      cases w[o] <;> simp only [Option.map_some, ptr, rank_append (Nat.le_of_lt h1)]
    · subst h1
      rw [List.getElem?_append_right (by rw [h.len]; exact Nat.le_refl _), List.getElem?_append_right (Nat.le_refl _), h.len]
      simp only [Nat.sub_self, List.getElem?_cons_zero, Option.map_some]
      cases t <;> simp only [ptr, rank_append (Nat.le_refl _)]
    · rw [List.getElem?_eq_none (by simp [h.len]; omega), List.getElem?_eq_none (by simp; omega)]
      rfl
  · intro u hu i hi f hif
    rcases List.mem_append.1 hu with h1 | h1
    · obtain ⟨c, hc⟩ := h.fonts u h1 i hi f hif
      exact ⟨c, by rw [List.getElem?_append_left (List.getElem?_eq_some_iff.1 hc).1, hc]⟩
    · have := hnew i (by rw [← hi]; exact (List.mem_singleton.1 h1).symm)
      rw [this] at hif
      cases hif

theorem set_next {l : List α} {k n : Nat} {b a : α} (hl : l.length = n) (hn : n < k) :
    (l ++ List.replicate (k - n) b).set n a = l ++ [a] ++ List.replicate (k - (n + 1)) b := by
  subst hl
  rw [List.set_append]
  have : k - l.length = (k - (l.length + 1)) + 1 := by omega
  simp [this, List.replicate_succ]

theorem step_newImage {s : St} {w : List Thing} (h : Sim s w) (hc : w.countP isImage < 100) :
    ∃ s', newImage s = .ok (s', .obj w.length) ∧ Sim s' (w ++ [.image ⟨0, 0, true, none, none, true⟩]) := by
  have hlen : s.imgs.length = 100 := by
    rw [h.imgs, List.length_append, filterMap_length (isImage_eq _), List.length_replicate]
    omega
  rw [newImage, if_pos (by rw [h.imgCount, hlen]; exact hc), h.len]
  refine ⟨_, rfl, ?_⟩
  have e1 : (w ++ [Thing.image ⟨0, 0, true, none, none, true⟩]).countP isImage = w.countP isImage + 1 := by simp [isImage]
  have e2 : (w ++ [Thing.image ⟨0, 0, true, none, none, true⟩]).countP isSound = w.countP isSound := by simp [isSound]
  have e3 : (w ++ [Thing.image ⟨0, 0, true, none, none, true⟩]).countP isFont = w.countP isFont := by simp [isFont]
  apply h.append
  · intro i hi
    cases hi
    rfl
  · rw [e1, h.imgCount]
    show s.imgs.set _ _ = _
    rw [h.imgs, set_next (filterMap_length (isImage_eq _) w) hc]
    simp [toImg, texOf]
  · rw [e1, h.imgCount]
  · omega
  · rw [e2]
    rw [filterMap_snoc rfl]
    exact h.auds
  · rw [e2]
    exact h.audCount
  · rw [e2]
    exact h.audMax
  · rw [e3]
    rw [filterMap_snoc rfl]
    exact h.fnts
  · rw [e3]
    exact h.fntCount
  · rw [e3]
    exact h.fntMax
  · simp only [ptr, rank_length, h.imgCount, if_true]

theorem sim_refused {s : St} {w : List Thing} (h : Sim s w) : Sim { s with objs := s.objs ++ [some .nil] } (w ++ [.refused]) := by
  have e1 : (w ++ [Thing.refused]).countP isImage = w.countP isImage := by simp [isImage]
  have e2 : (w ++ [Thing.refused]).countP isSound = w.countP isSound := by simp [isSound]
  have e3 : (w ++ [Thing.refused]).countP isFont = w.countP isFont := by simp [isFont]
  apply h.append
  · intro i hi
    cases hi
  · rw [e1]
    rw [filterMap_snoc rfl]
    exact h.imgs
  · rw [e1]
    exact h.imgCount
  · rw [e1]
    exact h.imgMax
  · rw [e2]
    rw [filterMap_snoc rfl]
    exact h.auds
  · rw [e2]
    exact h.audCount
  · rw [e2]
    exact h.audMax
  · rw [e3]
    rw [filterMap_snoc rfl]
    exact h.fnts
  · rw [e3]
    exact h.fntCount
  · rw [e3]
    exact h.fntMax
  · rfl

theorem step_newAudio {s : St} {w : List Thing} (h : Sim s w) (c : Option Nat) (hc : w.countP isSound < 50) :
    ∃ s', newAudio s c = .ok (s', match c with | some _ => .obj w.length | none => .failed) ∧ Sim s' (w ++ [.sound c true]) := by
  have hlen : s.auds.length = 50 := by
    rw [h.auds, List.length_append, filterMap_length isSound_eq, List.length_replicate]
    omega
  unfold newAudio
  rw [if_pos (by rw [h.audCount, hlen]; exact hc), h.len]
  refine ⟨_, rfl, ?_⟩
  have e1 : (w ++ [Thing.sound c true]).countP isImage = w.countP isImage := by simp [isImage]
  have e2 : (w ++ [Thing.sound c true]).countP isSound = w.countP isSound + 1 := by simp [isSound]
  have e3 : (w ++ [Thing.sound c true]).countP isFont = w.countP isFont := by simp [isFont]
  apply h.append
  · intro i hi
    cases hi
  · rw [e1]
    rw [filterMap_snoc rfl]
    exact h.imgs
  · rw [e1]
    exact h.imgCount
  · rw [e1]
    exact h.imgMax
  · rw [e2, h.audCount]
    show s.auds.set _ _ = _
    rw [h.auds, set_next (filterMap_length isSound_eq w) hc]
    simp [toAud]
  · rw [e2, h.audCount]
  · omega
  · rw [e3]
    rw [filterMap_snoc rfl]
    exact h.fnts
  · rw [e3]
    exact h.fntCount
  · rw [e3]
    exact h.fntMax
  · simp only [ptr, rank_length, h.audCount, if_true]

theorem step_newFont {s : St} {w : List Thing} (h : Sim s w) (c : Nat) (hc : w.countP isFont < 10) :
    ∃ s', newFont s c = .ok (s', .obj w.length) ∧ Sim s' (w ++ [.font c true]) := by
  have hlen : s.fnts.length = 10 := by
    rw [h.fnts, List.length_append, filterMap_length isFont_eq, List.length_replicate]
    omega
  rw [newFont, if_neg (by rw [h.fntCount]; omega), if_pos (by rw [h.fntCount, hlen]; exact hc), h.len]
  refine ⟨_, rfl, ?_⟩
  have e1 : (w ++ [Thing.font c true]).countP isImage = w.countP isImage := by simp [isImage]
  have e2 : (w ++ [Thing.font c true]).countP isSound = w.countP isSound := by simp [isSound]
  have e3 : (w ++ [Thing.font c true]).countP isFont = w.countP isFont + 1 := by simp [isFont]
  apply h.append
  · intro i hi
    cases hi
  · rw [e1]
    rw [filterMap_snoc rfl]
    exact h.imgs
  · rw [e1]
    exact h.imgCount
  · rw [e1]
    exact h.imgMax
  · rw [e2]
    rw [filterMap_snoc rfl]
    exact h.auds
  · rw [e2]
    exact h.audCount
  · rw [e2]
    exact h.audMax
  · rw [e3, h.fntCount]
    show s.fnts.set _ _ = _
    rw [h.fnts, set_next (filterMap_length isFont_eq w) hc]
    simp [toFnt]
  · rw [e3, h.fntCount]
  · omega
  · simp only [ptr, rank_length, h.fntCount, if_true]

theorem Sim.at_image {s : St} {w : List Thing} (h : Sim s w) {o : Nat} {i : Image} (hw : w[o]? = some (.image i)) :
    s.at o = if i.held then some (.img (rank isImage w o)) else none := by
  rw [h.at_eq, hw]
  rfl

/-- A message that changes an image. -/
theorem step_change {s : St} {w : List Thing} (h : Sim s w) (o : Nat) (f : Img → Img) (g : Image → Image)
    (hg : ∀ i : Image, i.held = true → (g i).held = true ∧ (g i).font = i.font ∧
      f ⟨i.x, i.y, i.shown, texOf i, i.font.map (rank isFont w)⟩ = ⟨(g i).x, (g i).y, (g i).shown, texOf (g i), i.font.map (rank isFont w)⟩) :
    ∃ s', change s o f = .ok (s', (match w[o]? with
        | some (.image i) => if i.held then (w.set o (.image (g i)), Ans.self) else (w, .nonsense)
        | _ => (w, .nonsense)).2) ∧
      Sim s' (match w[o]? with
        | some (.image i) => if i.held then (w.set o (.image (g i)), Ans.self) else (w, .nonsense)
        | _ => (w, .nonsense)).1 := by
  cases hw : w[o]? with
  | none =>
    have : s.at o = none := by rw [h.at_eq, hw]; rfl
    exact ⟨s, by rw [change, this], h⟩
  | some t =>
    cases t with
    | image i =>
      have h1 := h.at_image hw
      cases hh : i.held with
      | false =>
        rw [hh] at h1
        refine ⟨s, ?_, ?_⟩
        · rw [change, h1]
          simp [hh]
        · simpa [hh] using h
      | true =>
        rw [hh, if_pos rfl] at h1
        obtain ⟨g1, g2, g3⟩ := hg i hh
        refine ⟨{ s with imgs := s.imgs.set (rank isImage w o) ⟨(g i).x, (g i).y, (g i).shown, texOf (g i), i.font.map (rank isFont w)⟩ }, ?_, ?_⟩
        · rw [change, h1]
          simp only [h.img hw, g3]
          simp [hh]
        · have := h.set_image (i' := g i) hw (by rw [g1, hh]) (fun f hf => h.fonts _ (List.mem_of_getElem? hw) i rfl f (by rw [← g2]; exact hf))
          rw [g2] at this
          simpa [hh] using this
    | sound c b =>
      have : s.at o = if b then some (.aud (rank isSound w o)) else none := by rw [h.at_eq, hw]; rfl
      exact ⟨s, by rw [change, this]; cases b <;> rfl, h⟩
    | font c b =>
      have : s.at o = if b then some (.fnt (rank isFont w o)) else none := by rw [h.at_eq, hw]; rfl
      exact ⟨s, by rw [change, this]; cases b <;> rfl, h⟩
    | refused =>
      have : s.at o = some .nil := by rw [h.at_eq, hw]; rfl
      exact ⟨s, by rw [change, this], h⟩

end Verif.Lemmas.Slots
