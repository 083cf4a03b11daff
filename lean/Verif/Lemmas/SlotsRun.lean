import Verif.Lemmas.Slots

/-!
# Lemmas about tables of images, sounds and fonts: all messages
-/

namespace Verif.Lemmas.Slots
open Verif.Model.Slots Verif.Spec.Slots
open Verif (Out)

theorem isImage_lose (f : Nat) (t : Thing) : isImage (lose f t) = isImage t := by
  cases t with
  | image i => by_cases h : i.font = some f <;> simp [lose, h, isImage]
  | _ => rfl

theorem isSound_lose (f : Nat) (t : Thing) : isSound (lose f t) = isSound t := by
  cases t with
  | image i => by_cases h : i.font = some f <;> simp [lose, h, isSound]
  | _ => rfl

theorem isFont_lose (f : Nat) (t : Thing) : isFont (lose f t) = isFont t := by
  cases t with
  | image i => by_cases h : i.font = some f <;> simp [lose, h, isFont]
  | _ => rfl

theorem countP_same {p : β → Bool} {q : α → Bool} {g : α → β} (h : ∀ t, p (g t) = q t) (w : List α) :
    (w.map g).countP p = w.countP q := by
  induction w with
  | nil => rfl
  | cons a w ih => simp [List.countP_cons, h, ih]

theorem rank_map {p : β → Bool} {q : α → Bool} {g : α → β} (h : ∀ t, p (g t) = q t) (w : List α) (o : Nat) :
    rank p (w.map g) o = rank q w o := by
  rw [rank, rank, ← List.map_take, countP_same h]

theorem toAud_lose (f : Nat) (t : Thing) : toAud (lose f t) = toAud t := by
  cases t with
  | image i => by_cases h : i.font = some f <;> simp [lose, h, toAud]
  | _ => rfl

theorem toFnt_lose (f : Nat) (t : Thing) : toFnt (lose f t) = toFnt t := by
  cases t with
  | image i => by_cases h : i.font = some f <;> simp [lose, h, toFnt]
  | _ => rfl

theorem ptr_lose (w : List Thing) (o f : Nat) (t : Thing) : ptr w o (lose f t) = ptr w o t := by
  cases t with
  | image i => by_cases h : i.font = some f <;> simp [lose, h, ptr]
  | _ => rfl

theorem filterMap_map_same {f : β → Option γ} {h : α → Option γ} {g : α → β} {w : List α} (e : ∀ t ∈ w, f (g t) = h t) :
    (w.map g).filterMap f = w.filterMap h := by
  induction w with
  | nil => rfl
  | cons a w ih =>
    rw [List.map_cons, List.filterMap_cons, List.filterMap_cons, e a (by simp), ih fun t ht => e t (List.mem_cons_of_mem _ ht)]

theorem map_filterMap_eq (f : α → Option β) (g : β → γ) (w : List α) :
    (w.filterMap f).map g = w.filterMap fun t => (f t).map g := by
  induction w with
  | nil => rfl
  | cons a w ih => cases h : f a <;> simp [h, ih]

theorem step_collect_font {s : St} {w : List Thing} (h : Sim s w) {o c : Nat} (hw : w[o]? = some (.font c true)) :
    ∃ s', collect s o = .ok (s', .self) ∧ Sim s' ((w.set o (.font c false)).map (lose o)) := by
  have hat : s.at o = some (.fnt (rank isFont w o)) := by rw [h.at_eq, hw]; rfl
  have hlt := (List.getElem?_eq_some_iff.1 hw).1
  refine ⟨_, by rw [collect, hat]; simp only [h.fnt hw]; rfl, ?_⟩
  have hr : ∀ p : Thing → Bool, p (.font c true) = p (.font c false) → rank p (w.set o (.font c false)) = rank p w :=
    fun p hp => funext fun k => rank_set hw hp k
  have hri : rank isImage ((w.set o (.font c false)).map (lose o)) = rank isImage w :=
    funext fun k => by rw [rank_map (isImage_lose o), hr isImage rfl]
  have hrs : rank isSound ((w.set o (.font c false)).map (lose o)) = rank isSound w :=
    funext fun k => by rw [rank_map (isSound_lose o), hr isSound rfl]
  have hrf : rank isFont ((w.set o (.font c false)).map (lose o)) = rank isFont w :=
    funext fun k => by rw [rank_map (isFont_lose o), hr isFont rfl]
  have hci : ((w.set o (.font c false)).map (lose o)).countP isImage = w.countP isImage := by
    rw [countP_same (isImage_lose o), countP_set (t' := .font c false) hw rfl]
  have hcs : ((w.set o (.font c false)).map (lose o)).countP isSound = w.countP isSound := by
    rw [countP_same (isSound_lose o), countP_set (t' := .font c false) hw rfl]
  have hcf : ((w.set o (.font c false)).map (lose o)).countP isFont = w.countP isFont := by
    rw [countP_same (isFont_lose o), countP_set (t' := .font c false) hw rfl]
  refine ⟨?_, ?_, ?_, ?_, ?_, ?_, ?_, ?_, ?_, ?_, ?_, ?_⟩
  · rw [hrf, hci, h.imgs, List.map_append, List.map_replicate, map_filterMap_eq]
    show _ ++ _ = _ ++ _
    have e : (w.set o (.font c false)).filterMap (fun t => (toImg (rank isFont w) t).map
        (fun m => if m.font = some (rank isFont w o) then { m with font := none } else m))
        = w.filterMap (fun t => (toImg (rank isFont w) t).map
        (fun m => if m.font = some (rank isFont w o) then { m with font := none } else m)) :=
      filterMap_set_none (t' := .font c false) hw rfl rfl
    have hb : (if blankImg.font = some (rank isFont w o) then { blankImg with font := none } else blankImg) = blankImg := rfl
    rw [← e, hb]
    congr 1
    symm
    apply filterMap_map_same
    intro t ht
    cases t with
    | image i =>
      have hm : Thing.image i ∈ w := by
        rcases List.mem_or_eq_of_mem_set ht with h1 | h1
        · exact h1
        · cases h1
      simp only [lose, toImg, Option.map_some]
      cases hif : i.font with
      | none => simp [hif]
      | some f =>
        obtain ⟨d, hd⟩ := h.fonts _ hm i rfl f hif
        by_cases hfo : f = o
        · subst hfo
          simp [texOf]
        · have : rank isFont w f ≠ rank isFont w o := fun he => hfo (rank_inj hd rfl hw rfl he)
          simp [hfo, this, hif]
    | _ => rfl
  · rw [hci]
    exact h.imgCount
  · rw [hci]
    exact h.imgMax
  · rw [hcs, filterMap_map_same (h := toAud) (fun t _ => toAud_lose o t), filterMap_set_none (t' := .font c false) hw rfl rfl]
    exact h.auds
  · rw [hcs]
    exact h.audCount
  · rw [hcs]
    exact h.audMax
  · rw [hcf, filterMap_map_same (h := toFnt) (fun t _ => toFnt_lose o t),
      filterMap_set (t' := .font c false) isFont_eq hw rfl rfl, h.fnts, set_append_left]
    rw [filterMap_length isFont_eq]
    exact rank_lt_count hw rfl
  · rw [hcf]
    exact h.fntCount
  · rw [hcf]
    exact h.fntMax
  · simp [h.len]
  · intro k
    by_cases hk : o = k
    · subst hk
      rw [List.getElem?_set_self (by rw [h.len]; exact hlt), List.getElem?_map, List.getElem?_set_self hlt]
      rfl
    · rw [List.getElem?_set_ne hk, List.getElem?_map, List.getElem?_set_ne hk, h.objs]
      cases hwk : w[k]? with
      | none => rfl
      | some t =>
        simp only [Option.map_some, ptr_lose]
        cases t <;> simp only [ptr, hri, hrs, hrf]
  · intro t ht i hi f hif
    obtain ⟨u, hu, hut⟩ := List.mem_map.1 ht
    rw [hi] at hut
    cases u with
    | image j =>
      have hm : Thing.image j ∈ w := by
        rcases List.mem_or_eq_of_mem_set hu with h1 | h1
        · exact h1
        · cases h1
      have hj : j.font = some f ∧ f ≠ o := by
        simp only [lose] at hut
        by_cases hjo : j.font = some o
        · rw [if_pos hjo] at hut
          cases hut
          cases hif
        · rw [if_neg hjo] at hut
          cases hut
          refine ⟨hif, fun he => hjo (by rw [hif, he])⟩
      obtain ⟨d, hd⟩ := h.fonts _ hm j rfl f hj.1
      refine ⟨d, ?_⟩
      rw [List.getElem?_map, List.getElem?_set_ne (Ne.symm hj.2), hd]
      rfl
    | sound _ _ => cases hut
    | font _ _ => cases hut
    | refused => cases hut

theorem step_collect_sound {s : St} {w : List Thing} (h : Sim s w) {o : Nat} {c : Option Nat} (hw : w[o]? = some (.sound c true)) :
    ∃ s', collect s o = .ok (s', .self) ∧ Sim s' (w.set o (.sound c false)) := by
  have hat : s.at o = some (.aud (rank isSound w o)) := by rw [h.at_eq, hw]; rfl
  have hlt := (List.getElem?_eq_some_iff.1 hw).1
  refine ⟨_, by rw [collect, hat], ?_⟩
  have hr : ∀ p : Thing → Bool, p (.sound c true) = p (.sound c false) → rank p (w.set o (.sound c false)) = rank p w :=
    fun p hp => funext fun k => rank_set hw hp k
  refine ⟨?_, ?_, ?_, ?_, ?_, ?_, ?_, ?_, ?_, ?_, ?_, ?_⟩
  · rw [hr isFont rfl, countP_set (t' := .sound c false) hw rfl, filterMap_set_none (t' := .sound c false) hw rfl rfl]
    exact h.imgs
  · rw [countP_set (t' := .sound c false) hw rfl]
    exact h.imgCount
  · rw [countP_set (t' := .sound c false) hw rfl]
    exact h.imgMax
  · rw [countP_set (t' := .sound c false) hw rfl, filterMap_set (t' := .sound c false) isSound_eq hw rfl rfl]
    show s.auds = _
    have h1 := filterMap_get isSound_eq hw (y := c) rfl
    rw [h.auds]
    congr 1
    symm
    apply List.ext_getElem?
    intro k
    by_cases hk : rank isSound w o = k
    · subst hk
      rw [List.getElem?_set_self (List.getElem?_eq_some_iff.1 h1).1, h1]
    · rw [List.getElem?_set_ne hk]
  · rw [countP_set (t' := .sound c false) hw rfl]
    exact h.audCount
  · rw [countP_set (t' := .sound c false) hw rfl]
    exact h.audMax
  · rw [countP_set (t' := .sound c false) hw rfl, filterMap_set_none (t' := .sound c false) hw rfl rfl]
    exact h.fnts
  · rw [countP_set (t' := .sound c false) hw rfl]
    exact h.fntCount
  · rw [countP_set (t' := .sound c false) hw rfl]
    exact h.fntMax
  · simp [h.len]
  · intro k
    by_cases hk : o = k
    · subst hk
      rw [List.getElem?_set_self (by rw [h.len]; exact hlt), List.getElem?_set_self hlt]
      rfl
    · rw [List.getElem?_set_ne hk, List.getElem?_set_ne hk, h.objs]
      cases hwk : w[k]? with
      | none => rfl
      | some t => cases t <;> simp only [Option.map_some, ptr, hr isImage rfl, hr isSound rfl, hr isFont rfl]
  · intro t ht i hi f hif
    rcases List.mem_or_eq_of_mem_set ht with h1 | h1
    · obtain ⟨d, hd⟩ := h.fonts t h1 i hi f hif
      refine ⟨d, ?_⟩
      have : o ≠ f := by
        intro he
        rw [he, hd] at hw
        cases hw
      rw [List.getElem?_set_ne this, hd]
    · rw [hi] at h1
      cases h1

theorem step_collect_image {s : St} {w : List Thing} (h : Sim s w) {o : Nat} {i : Image} (hw : w[o]? = some (.image i))
    (hh : i.held = true) :
    ∃ s', collect s o = .ok (s', .self) ∧ Sim s' (w.set o (.image { i with font := none, held := false })) := by
  have hat := h.at_image hw
  rw [hh, if_pos rfl] at hat
  have hlt := (List.getElem?_eq_some_iff.1 hw).1
  refine ⟨_, by rw [collect, hat]; simp only [h.img hw]; rfl, ?_⟩
  have hr : ∀ p : Thing → Bool, p (.image i) = p (.image { i with font := none, held := false }) →
      rank p (w.set o (.image { i with font := none, held := false })) = rank p w :=
    fun p hp => funext fun k => rank_set hw hp k
  have hc : ∀ p : Thing → Bool, p (.image i) = p (.image { i with font := none, held := false }) →
      (w.set o (.image { i with font := none, held := false })).countP p = w.countP p := fun p hp => countP_set hw hp
  have htex : (if texOf i = .null then Tex.null else .destroyed) = texOf { i with font := none, held := false } := by
    unfold texOf
    cases i.src <;> simp [hh]
  refine ⟨?_, ?_, ?_, ?_, ?_, ?_, ?_, ?_, ?_, ?_, ?_, ?_⟩
  · show s.imgs.set _ _ = _
    rw [hr isFont rfl, hc isImage rfl,
      filterMap_set (t' := .image { i with font := none, held := false }) (isImage_eq _) hw rfl rfl, h.imgs, set_append_left, htex]
    · rfl
    · rw [filterMap_length (isImage_eq _)]
      exact rank_lt_count hw rfl
  · rw [hc isImage rfl]
    exact h.imgCount
  · rw [hc isImage rfl]
    exact h.imgMax
  · rw [hc isSound rfl, filterMap_set_none (t' := .image { i with font := none, held := false }) hw rfl rfl]
    exact h.auds
  · rw [hc isSound rfl]
    exact h.audCount
  · rw [hc isSound rfl]
    exact h.audMax
  · rw [hc isFont rfl, filterMap_set_none (t' := .image { i with font := none, held := false }) hw rfl rfl]
    exact h.fnts
  · rw [hc isFont rfl]
    exact h.fntCount
  · rw [hc isFont rfl]
    exact h.fntMax
  · simp [h.len]
  · intro k
    by_cases hk : o = k
    · subst hk
      rw [List.getElem?_set_self (by rw [h.len]; exact hlt), List.getElem?_set_self hlt]
      rfl
    · rw [List.getElem?_set_ne hk, List.getElem?_set_ne hk, h.objs]
      cases hwk : w[k]? with
      | none => rfl
      | some t => cases t <;> simp only [Option.map_some, ptr, hr isImage rfl, hr isSound rfl, hr isFont rfl]
  · intro t ht j hj f hjf
    rcases List.mem_or_eq_of_mem_set ht with h1 | h1
    · obtain ⟨d, hd⟩ := h.fonts t h1 j hj f hjf
      refine ⟨d, ?_⟩
      have : o ≠ f := by
        intro he
        rw [he, hd] at hw
        cases hw
      rw [List.getElem?_set_ne this, hd]
    · rw [hj] at h1
      cases h1
      cases hjf

theorem scene_append (l r : List Img) : scene (l ++ r) = (scene l).bind fun a => (scene r).bind fun b => .ok (a ++ b) := by
  induction l with
  | nil =>
    simp only [List.nil_append, scene, Out.bind]
    cases scene r <;> rfl
  | cons m l ih =>
    simp only [List.cons_append, scene, ih]
    cases m.visible with
    | false => rfl
    | true =>
      simp only [if_true]
      cases m.tex with
      | null => rfl
      | destroyed => rfl
      | live c =>
        simp only [Out.bind]
        cases scene l <;> simp only
        cases scene r <;> simp

theorem scene_seen (r : Nat → Nat) (w : List Thing) (hw : ∀ t ∈ w, ∀ i, t = .image i → i.shown = true → i.src ≠ none → i.held = true) :
    scene (w.filterMap (toImg r)) = .ok (w.filterMap seen) := by
  induction w with
  | nil => rfl
  | cons t w ih =>
    have ih := ih fun u hu => hw u (List.mem_cons_of_mem _ hu)
    cases t with
    | image i =>
      have := hw _ (List.mem_cons_self ..) i rfl
      obtain ⟨x, y, shown, src, font, held⟩ := i
      cases shown with
      | false =>
        simp only [List.filterMap_cons, toImg, seen, scene]
        exact ih
      | true =>
        cases src with
        | none =>
          simp only [List.filterMap_cons, toImg, seen, scene, texOf, if_true]
          exact ih
        | some c =>
          have hh : held = true := this rfl (by simp)
          subst hh
          simp only [List.filterMap_cons, toImg, seen, scene, texOf, if_true, ih]
          rfl
    | sound _ _ => exact ih
    | font _ _ => exact ih
    | refused => exact ih

theorem Sim.take {s : St} {w : List Thing} (h : Sim s w) : s.imgs.take s.imgCount = w.filterMap (toImg (rank isFont w)) := by
  rw [h.imgs, h.imgCount, ← filterMap_length (isImage_eq (rank isFont w)) w, List.take_left']
  rfl

/-- Every message. -/
theorem step_sim {s : St} {w : List Thing} (h : Sim s w) (op : Op) (hf : Fits w op) :
    ∃ s', Model.Slots.step s op = .ok (s', (Spec.Slots.step w op).2) ∧ Sim s' (Spec.Slots.step w op).1 := by
  cases op with
  | newImage =>
    have hf : w.countP isImage < 100 := hf
    simp only [Model.Slots.step, Spec.Slots.step, if_pos hf]
    exact step_newImage h hf
  | source o c =>
    have := step_change h o (fun m => { m with tex := .live c }) (fun i => { i with src := some c })
      (fun i hi => ⟨hi, rfl, by simp [texOf, hi]⟩)
    exact this
  | place o x y =>
    exact step_change h o (fun m => { m with x := x, y := y }) (fun i => { i with x := x, y := y })
      (fun i hi => ⟨hi, rfl, rfl⟩)
  | show_ o b =>
    exact step_change h o (fun m => { m with visible := b }) (fun i => { i with shown := b }) (fun i hi => ⟨hi, rfl, rfl⟩)
  | whereIs o =>
    simp only [Model.Slots.step, Spec.Slots.step, whereIs]
    cases hw : w[o]? with
    | none =>
      have : s.at o = none := by rw [h.at_eq, hw]; rfl
      exact ⟨s, by rw [this], h⟩
    | some t =>
      cases t with
      | image i =>
        have h1 := h.at_image hw
        cases hh : i.held with
        | false =>
          rw [hh] at h1
          exact ⟨s, by rw [h1]; simp [hh], by simpa [hh] using h⟩
        | true =>
          rw [hh, if_pos rfl] at h1
          exact ⟨s, by rw [h1]; simp [h.img hw, hh], by simpa [hh] using h⟩
      | sound c b =>
        have : s.at o = if b then some (.aud (rank isSound w o)) else none := by rw [h.at_eq, hw]; rfl
        exact ⟨s, by rw [this]; cases b <;> rfl, h⟩
      | font c b =>
        have : s.at o = if b then some (.fnt (rank isFont w o)) else none := by rw [h.at_eq, hw]; rfl
        exact ⟨s, by rw [this]; cases b <;> rfl, h⟩
      | refused =>
        have : s.at o = some .nil := by rw [h.at_eq, hw]; rfl
        exact ⟨s, by rw [this], h⟩
  | newSound c =>
    simp only [Model.Slots.step, Spec.Slots.step, newSound]
    by_cases hc : w.countP isSound < 50
    · rw [if_pos hc, if_neg (by rw [h.audCount]; omega)]
      obtain ⟨s', h1, h2⟩ := step_newAudio h c hc
      cases c <;> exact ⟨s', h1, h2⟩
    · rw [if_neg hc, if_pos (by rw [h.audCount]; omega)]
      exact ⟨_, rfl, sim_refused h⟩
  | newMusic c =>
    have hc : w.countP isSound < 50 := hf
    simp only [Model.Slots.step, Spec.Slots.step, if_pos hc]
    obtain ⟨s', h1, h2⟩ := step_newAudio h c hc
    cases c <;> exact ⟨s', h1, h2⟩
  | play o =>
    simp only [Model.Slots.step, Spec.Slots.step, play]
    cases hw : w[o]? with
    | none =>
      have : s.at o = none := by rw [h.at_eq, hw]; rfl
      exact ⟨s, by rw [this], h⟩
    | some t =>
      cases t with
      | image i =>
        have h1 := h.at_image hw
        exact ⟨s, by rw [h1]; cases i.held <;> rfl, h⟩
      | sound c b =>
        have : s.at o = if b then some (.aud (rank isSound w o)) else none := by rw [h.at_eq, hw]; rfl
        cases b with
        | false => exact ⟨s, by rw [this]; rfl, h⟩
        | true => exact ⟨s, by rw [this]; cases c <;> simp [h.aud hw], h⟩
      | font c b =>
        have : s.at o = if b then some (.fnt (rank isFont w o)) else none := by rw [h.at_eq, hw]; rfl
        exact ⟨s, by rw [this]; cases b <;> rfl, h⟩
      | refused =>
        have : s.at o = some .nil := by rw [h.at_eq, hw]; rfl
        exact ⟨s, by rw [this], h⟩
  | newFont c =>
    by_cases hc : w.countP isFont < 10
    · simp only [Model.Slots.step, Spec.Slots.step, if_pos hc]
      exact step_newFont h c hc
    · simp only [Model.Slots.step, Spec.Slots.step, if_neg hc, newFont]
      rw [if_pos (by rw [h.fntCount]; omega)]
      exact ⟨_, rfl, sim_refused h⟩
  | useFont o f =>
    have hf : w[f]? ≠ some .refused := hf
    simp only [Model.Slots.step, Spec.Slots.step, useFont]
    have hnot : ∀ {p : Ptr}, s.at f = some p → p ≠ .nil := by
      intro p hp he
      subst he
      rw [h.at_eq] at hp
      cases hwf : w[f]? with
      | none => rw [hwf] at hp; cases hp
      | some t =>
        rw [hwf] at hp
        cases t with
        | image i => cases hh : i.held <;> simp [ptr, hh] at hp
        | sound c b => cases b <;> simp [ptr] at hp
        | font c b => cases b <;> simp [ptr] at hp
        | refused => exact hf hwf
    cases hw : w[o]? with
    | none =>
      have : s.at o = none := by rw [h.at_eq, hw]; rfl
      exact ⟨s, by rw [this], h⟩
    | some t =>
      cases t with
      | image i =>
        have h1 := h.at_image hw
        cases hwf : w[f]? with
        | none =>
          have : s.at f = none := by rw [h.at_eq, hwf]; rfl
          exact ⟨s, by rw [this, h1]; cases i.held <;> rfl, h⟩
        | some u =>
          cases u with
          | image j =>
            have h2 := h.at_image hwf
            exact ⟨s, by rw [h1, h2]; cases i.held <;> cases j.held <;> rfl, h⟩
          | sound c b =>
            have : s.at f = if b then some (.aud (rank isSound w f)) else none := by rw [h.at_eq, hwf]; rfl
            exact ⟨s, by rw [h1, this]; cases i.held <;> cases b <;> rfl, h⟩
          | refused => exact absurd hwf hf
          | font c b =>
            have h2 : s.at f = if b then some (.fnt (rank isFont w f)) else none := by rw [h.at_eq, hwf]; rfl
            cases b with
            | false => exact ⟨s, by rw [h1, h2]; cases i.held <;> rfl, h⟩
            | true =>
              cases hh : i.held with
              | false =>
                rw [hh] at h1
                exact ⟨s, by rw [h1, h2]; simp [hh], by simpa [hh] using h⟩
              | true =>
                rw [hh, if_pos rfl] at h1
                obtain ⟨x, y, sh, src, fo, held⟩ := i
                simp only at hh
                subst hh
                have h3 := h.set_image (i' := ⟨x, y, sh, src, some f, true⟩) hw rfl (fun g hg => by cases hg; exact ⟨c, hwf⟩)
                exact ⟨_, by rw [h1, h2]; simp only [if_true, h.img hw]; rfl, h3⟩
      | sound c b =>
        have : s.at o = if b then some (.aud (rank isSound w o)) else none := by rw [h.at_eq, hw]; rfl
        exact ⟨s, by rw [this]; cases b <;> rfl, h⟩
      | font c b =>
        have : s.at o = if b then some (.fnt (rank isFont w o)) else none := by rw [h.at_eq, hw]; rfl
        exact ⟨s, by rw [this]; cases b <;> rfl, h⟩
      | refused =>
        have : s.at o = some .nil := by rw [h.at_eq, hw]; rfl
        exact ⟨s, by rw [this], h⟩
  | write o =>
    have hf : ∀ i, w[o]? = some (.image i) → i.held = true → i.src ≠ none → i.font ≠ none := by
      intro i hi h1 h2 h3
      have hf : (w[o]?).all canWrite = true := hf
      rw [hi] at hf
      obtain ⟨x, y, sh, src, fo, held⟩ := i
      simp only at h1 h2 h3
      subst h1 h3
      cases src with
      | none => exact h2 rfl
      | some c => cases hf
    simp only [Model.Slots.step, Spec.Slots.step, write]
    cases hw : w[o]? with
    | none =>
      have : s.at o = none := by rw [h.at_eq, hw]; rfl
      exact ⟨s, by rw [this], h⟩
    | some t =>
      cases t with
      | image i =>
        have h1 := h.at_image hw
        cases hh : i.held with
        | false =>
          rw [hh] at h1
          exact ⟨s, by rw [h1]; simp [hh], by simpa [hh] using h⟩
        | true =>
          rw [hh, if_pos rfl] at h1
          have hf := hf i hw hh
          cases hs : i.src with
          | none =>
            refine ⟨s, ?_, ?_⟩
            · rw [h1]
              simp [h.img hw, hh, hs, texOf]
            · simpa [hh, hs] using h
          | some c =>
            cases hif : i.font with
            | none => exact absurd hif (hf (by simp [hs]))
            | some f =>
              obtain ⟨d, hd⟩ := h.fonts _ (List.mem_of_getElem? hw) i rfl f hif
              refine ⟨s, ?_, ?_⟩
              · rw [h1]
                simp [h.img hw, hh, hs, texOf, hif, hd, h.fnt hd]
              · simpa [hh, hs, hif] using h
      | sound c b =>
        have : s.at o = if b then some (.aud (rank isSound w o)) else none := by rw [h.at_eq, hw]; rfl
        exact ⟨s, by rw [this]; cases b <;> rfl, h⟩
      | font c b =>
        have : s.at o = if b then some (.fnt (rank isFont w o)) else none := by rw [h.at_eq, hw]; rfl
        exact ⟨s, by rw [this]; cases b <;> rfl, h⟩
      | refused =>
        have : s.at o = some .nil := by rw [h.at_eq, hw]; rfl
        exact ⟨s, by rw [this], h⟩
  | collect o =>
    simp only [Model.Slots.step, Spec.Slots.step]
    cases hw : w[o]? with
    | none =>
      have : s.at o = none := by rw [h.at_eq, hw]; rfl
      exact ⟨s, by rw [collect, this], h⟩
    | some t =>
      cases t with
      | image i =>
        have h1 := h.at_image hw
        cases hh : i.held with
        | false =>
          rw [hh] at h1
          exact ⟨s, by rw [collect, h1]; simp [hh], by simpa [hh] using h⟩
        | true =>
          simp only [hh, if_true]
          exact step_collect_image h hw hh
      | sound c b =>
        cases b with
        | true => exact step_collect_sound h hw
        | false =>
          have : s.at o = none := by rw [h.at_eq, hw]; rfl
          exact ⟨s, by rw [collect, this], h⟩
      | font c b =>
        cases b with
        | true => exact step_collect_font h hw
        | false =>
          have : s.at o = none := by rw [h.at_eq, hw]; rfl
          exact ⟨s, by rw [collect, this], h⟩
      | refused =>
        have : s.at o = some .nil := by rw [h.at_eq, hw]; rfl
        exact ⟨s, by rw [collect, this], h⟩
  | draw =>
    simp only [Model.Slots.step, Spec.Slots.step]
    have hf : ∀ t ∈ w, ∀ i, t = .image i → i.shown = true → i.src ≠ none → i.held = true := by
      intro t ht i hi h1 h2
      have hf : neat t = true := List.all_eq_true.1 hf t ht
      obtain ⟨x, y, sh, src, fo, held⟩ := i
      simp only at h1 h2
      subst hi h1
      cases src with
      | none => exact absurd rfl h2
      | some c => exact hf
    rw [h.take, scene_seen _ _ hf]
    exact ⟨s, rfl, h⟩

theorem run_sim {s : St} {w : List Thing} (h : Sim s w) (l : List Op) (hf : AllFit w l) :
    Model.Slots.run s l = .ok (Spec.Slots.run w l) := by
  induction l generalizing s w with
  | nil => rfl
  | cons op l ih =>
    obtain ⟨s', h1, h2⟩ := step_sim h op hf.1
    simp only [Model.Slots.run, Spec.Slots.run, h1, Out.bind, ih h2 hf.2]

/-! ## Histories -/

theorem after_append (w : List Thing) (l k : List Op) : after w (l ++ k) = after (after w l) k := by
  induction l generalizing w with
  | nil => rfl
  | cons op l ih => exact ih _

theorem run_append (w : List Thing) (l k : List Op) :
    Spec.Slots.run w (l ++ k) = Spec.Slots.run w l ++ Spec.Slots.run (after w l) k := by
  induction l generalizing w with
  | nil => rfl
  | cons op l ih => simp only [List.cons_append, Spec.Slots.run, after, ih]

theorem step_keeps {w : List Thing} {o : Nat} {i : Image} (hw : w[o]? = some (.image i)) (hh : i.held = true) (op : Op)
    (ht : touches o op = false) :
    ∃ j : Image, (Spec.Slots.step w op).1[o]? = some (.image j) ∧ j.held = true ∧ j.x = i.x ∧ j.y = i.y := by
  have hlt := (List.getElem?_eq_some_iff.1 hw).1
  have happ : ∀ t : Thing, (w ++ [t])[o]? = some (.image i) := fun t => by rw [List.getElem?_append_left hlt, hw]
  have hset : ∀ (k : Nat) (g : Image → Image), (∀ i, i.held = true → (g i).held = true ∧ (g i).x = i.x ∧ (g i).y = i.y) →
      ∀ a : Ans, ∃ j : Image, (match w[k]? with
        | some (.image i) => if i.held then (w.set k (.image (g i)), a) else (w, .nonsense)
        | _ => (w, .nonsense)).1[o]? = some (.image j) ∧ j.held = true ∧ j.x = i.x ∧ j.y = i.y := by
    intro k g hg a
    by_cases hk : k = o
    · subst hk
      rw [hw]
      simp only [hh, if_true, List.getElem?_set_self hlt]
      exact ⟨g i, rfl, hg i hh⟩
    · split
      · split
        · rw [List.getElem?_set_ne hk]
          exact ⟨i, hw, hh, rfl, rfl⟩
        · exact ⟨i, hw, hh, rfl, rfl⟩
      · exact ⟨i, hw, hh, rfl, rfl⟩
  have hsame : ∃ j : Image, w[o]? = some (.image j) ∧ j.held = true ∧ j.x = i.x ∧ j.y = i.y := ⟨i, hw, hh, rfl, rfl⟩
  cases op with
  | newImage => simp only [Spec.Slots.step]; split <;> exact ⟨i, happ _, hh, rfl, rfl⟩
  | source k c => exact hset k (fun i => { i with src := some c }) (fun i hi => ⟨hi, rfl, rfl⟩) .self
  | place k x y =>
    simp only [touches, beq_eq_false_iff_ne] at ht
    simp only [Spec.Slots.step]
    split
    · split
      · rw [List.getElem?_set_ne ht]
        exact hsame
      · exact hsame
    · exact hsame
  | whereIs k =>
    simp only [Spec.Slots.step]
    split
    · split <;> exact hsame
    · exact hsame
  | show_ k b => exact hset k (fun i => { i with shown := b }) (fun i hi => ⟨hi, rfl, rfl⟩) .self
  | newSound c =>
    simp only [Spec.Slots.step]
    split
    · cases c <;> exact ⟨i, happ _, hh, rfl, rfl⟩
    · exact ⟨i, happ _, hh, rfl, rfl⟩
  | newMusic c =>
    simp only [Spec.Slots.step]
    split
    · cases c <;> exact ⟨i, happ _, hh, rfl, rfl⟩
    · exact ⟨i, happ _, hh, rfl, rfl⟩
  | play k => simp only [Spec.Slots.step]; split <;> exact hsame
  | newFont c => simp only [Spec.Slots.step]; split <;> exact ⟨i, happ _, hh, rfl, rfl⟩
  | useFont k f =>
    simp only [Spec.Slots.step]
    split
    · rename_i i' _ h1 _
      split
      · by_cases hk : k = o
        · subst hk
          rw [hw] at h1
          cases h1
          exact ⟨{ i with font := some f }, List.getElem?_set_self hlt, hh, rfl, rfl⟩
        · rw [List.getElem?_set_ne hk]
          exact hsame
      · exact hsame
    · split <;> exact hsame
    · exact hsame
  | write k =>
    simp only [Spec.Slots.step]
    split
    · split
      · split <;> exact hsame
      · exact hsame
    · exact hsame
  | collect k =>
    simp only [touches, beq_eq_false_iff_ne] at ht
    simp only [Spec.Slots.step]
    split
    · split
      · rw [List.getElem?_set_ne ht]
        exact hsame
      · exact hsame
    · rw [List.getElem?_set_ne ht]
      exact hsame
    · rw [List.getElem?_map, List.getElem?_set_ne ht, hw]
      simp only [Option.map_some, lose]
      split
      · exact ⟨{ i with font := none }, rfl, hh, rfl, rfl⟩
      · exact ⟨i, rfl, hh, rfl, rfl⟩
    · exact hsame
  | draw => exact hsame

theorem after_keeps {w : List Thing} {o : Nat} {i : Image} (hw : w[o]? = some (.image i)) (hh : i.held = true) (l : List Op)
    (ht : ∀ op ∈ l, touches o op = false) :
    ∃ j : Image, (after w l)[o]? = some (.image j) ∧ j.held = true ∧ j.x = i.x ∧ j.y = i.y := by
  induction l generalizing w i with
  | nil => exact ⟨i, hw, hh, rfl, rfl⟩
  | cons op l ih =>
    obtain ⟨j, h1, h2, h3, h4⟩ := step_keeps hw hh op (ht op (by simp))
    obtain ⟨k, g1, g2, g3, g4⟩ := ih h1 h2 fun op h => ht op (List.mem_cons_of_mem _ h)
    exact ⟨k, g1, g2, g3.trans h3, g4.trans h4⟩

theorem count_step (w : List Thing) (op : Op) :
    min 50 (w.countP isSound + (if asks op then 1 else 0)) ≤ (Spec.Slots.step w op).1.countP isSound := by
  have happ : ∀ t : Thing, w.countP isSound ≤ (w ++ [t]).countP isSound := fun t => by simp
  have hset : ∀ (k : Nat) (t t' : Thing), w[k]? = some t → isSound t = isSound t' → (w.set k t').countP isSound = w.countP isSound :=
    fun k t t' h h' => countP_set h h'
  have hle : ∀ n : Nat, w.countP isSound ≤ n → min 50 (w.countP isSound + 0) ≤ n := fun n h => by omega
  cases op with
  | newImage => simp only [Spec.Slots.step, asks, Bool.false_eq_true, if_false]; split <;> exact hle _ (happ _)
  | source k c =>
    simp only [Spec.Slots.step, asks, Bool.false_eq_true, if_false]
    split
    · rename_i h; split
      · exact hle _ (Nat.le_of_eq (hset k _ _ h (by rfl)).symm)
      · exact hle _ (Nat.le_refl _)
    · exact hle _ (Nat.le_refl _)
  | place k x y =>
    simp only [Spec.Slots.step, asks, Bool.false_eq_true, if_false]
    split
    · rename_i h; split
      · exact hle _ (Nat.le_of_eq (hset k _ _ h (by rfl)).symm)
      · exact hle _ (Nat.le_refl _)
    · exact hle _ (Nat.le_refl _)
  | whereIs k =>
    simp only [Spec.Slots.step, asks, Bool.false_eq_true, if_false]
    split
    · split <;> exact hle _ (Nat.le_refl _)
    · exact hle _ (Nat.le_refl _)
  | show_ k b =>
    simp only [Spec.Slots.step, asks, Bool.false_eq_true, if_false]
    split
    · rename_i h; split
      · exact hle _ (Nat.le_of_eq (hset k _ _ h (by rfl)).symm)
      · exact hle _ (Nat.le_refl _)
    · exact hle _ (Nat.le_refl _)
  | newSound c =>
    simp only [Spec.Slots.step, asks, if_true]
    split
    · cases c <;> simp only [List.countP_append, List.countP_singleton, isSound, if_true] <;> omega
    · simp only [List.countP_append, List.countP_singleton, isSound]; omega
  | newMusic c =>
    simp only [Spec.Slots.step, asks, if_true]
    split
    · cases c <;> simp only [List.countP_append, List.countP_singleton, isSound, if_true] <;> omega
    · simp only [List.countP_append, List.countP_singleton, isSound]; omega
  | play k => simp only [Spec.Slots.step, asks, Bool.false_eq_true, if_false]; split <;> exact hle _ (Nat.le_refl _)
  | newFont c => simp only [Spec.Slots.step, asks, Bool.false_eq_true, if_false]; split <;> exact hle _ (happ _)
  | useFont k f =>
    simp only [Spec.Slots.step, asks, Bool.false_eq_true, if_false]
    split
    · rename_i h _; split
      · exact hle _ (Nat.le_of_eq (hset k _ _ h (by rfl)).symm)
      · exact hle _ (Nat.le_refl _)
    · split <;> exact hle _ (Nat.le_refl _)
    · exact hle _ (Nat.le_refl _)
  | write k =>
    simp only [Spec.Slots.step, asks, Bool.false_eq_true, if_false]
    split
    · split
      · split <;> exact hle _ (Nat.le_refl _)
      · exact hle _ (Nat.le_refl _)
    · exact hle _ (Nat.le_refl _)
  | collect k =>
    simp only [Spec.Slots.step, asks, Bool.false_eq_true, if_false]
    split
    · rename_i h; split
      · exact hle _ (Nat.le_of_eq (hset k _ _ h (by rfl)).symm)
      · exact hle _ (Nat.le_refl _)
    · rename_i h
      exact hle _ (Nat.le_of_eq (hset k _ _ h (by rfl)).symm)
    · rename_i h
      rw [countP_same (isSound_lose k), hset k _ _ h (by rfl)]
      exact hle _ (Nat.le_refl _)
    · exact hle _ (Nat.le_refl _)
  | draw => exact hle _ (Nat.le_refl _)

theorem count_after (w : List Thing) (l : List Op) : min 50 (w.countP isSound + l.countP asks) ≤ (after w l).countP isSound := by
  induction l generalizing w with
  | nil =>
    simp only [after, List.countP_nil]
    omega
  | cons op l ih =>
    have h1 := count_step w op
    have h2 := ih (Spec.Slots.step w op).1
    simp only [after, List.countP_cons]
    omega

theorem allFit_free (w : List Thing) (l : List Op) (h : ∀ op ∈ l, ∀ w, Fits w op) : AllFit w l := by
  induction l generalizing w with
  | nil => trivial
  | cons op l ih => exact ⟨h op (by simp) w, ih _ fun op h' => h op (List.mem_cons_of_mem _ h')⟩

end Verif.Lemmas.Slots
