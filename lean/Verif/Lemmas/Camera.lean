import Verif.Spec.Camera
import Verif.Model.Camera
import Verif.Lemmas.Stage

/-! Lemmas about the camera and animated images. -/

namespace Verif.Lemmas.Camera
open Verif Verif.Spec.Stage Verif.Spec.Camera Verif.Model.Stage Verif.Model.Camera Verif.Lemmas.Stage

theorem follow_within {c size whole b mid : Int} (h : Within c size whole) : Within (follow c size whole b mid) size whole := by
  simp only [Within, follow] at *
  repeat' split
  all_goals omega

theorem follow_sees {c size whole b mid : Int} (hb : 0 < b ∧ b < size) (h : Sees c size mid) :
    Sees (follow c size whole b mid) size mid := by
  simp only [Sees, follow] at *
  repeat' split
  all_goals omega

theorem follow_nearer {c size whole b mid : Int} (hb : 0 < b ∧ b < size) (hw : Within c size whole) (hm : 0 ≤ mid ∧ mid < whole) : (c + size ≤ mid → follow c size whole b mid = c + 1) ∧ (mid < c → follow c size whole b mid = c - 1) := by
  simp only [Within] at hw
  constructor
  · intro h
    simp only [follow]
    rw [if_pos (show mid > c + size - b ∧ c < whole - size by omega), if_neg (by omega)]
  · intro h
    simp only [follow]
    rw [if_neg (show ¬ (mid > c + size - b ∧ c < whole - size) by omega), if_pos (by omega)]

/-- The same, again and again. -/
def again (size whole b mid : Int) : Nat → Int → Int
  | 0, c => c
  | n + 1, c => again size whole b mid n (follow c size whole b mid)

theorem again_sees {size whole b mid : Int} (hb : 0 < b ∧ b < size) (n : Nat) (c : Int) (h : Sees c size mid) :
    Sees (again size whole b mid n c) size mid := by
  induction n generalizing c with
  | zero => exact h
  | succ n ih => exact ih _ (follow_sees hb h)

theorem again_finds {size whole b mid : Int} (hb : 0 < b ∧ b < size) (hm : 0 ≤ mid ∧ mid < whole) (n : Nat) (c : Int)
    (hw : Within c size whole) (hn : mid - (c + size) < n ∧ c - mid ≤ n) : Sees (again size whole b mid n c) size mid := by
  induction n generalizing c with
  | zero => exact ⟨by simp only [again]; omega, by simp only [again]; omega⟩
  | succ n ih =>
    by_cases h1 : Sees c size mid
    · exact again_sees hb (n + 1) c h1
    · have h2 := follow_nearer hb hw hm
      rw [again]
      refine ih _ (follow_within hw) ?_
      simp only [Sees] at h1
      by_cases h3 : mid < c
      · rw [h2.2 h3]
        omega
      · rw [h2.1 (by omega)]
        omega

theorem border_spec {w : Int} (h : 0 ≤ w) : 0 ≤ border w ∧ border w * 10 ≤ 3 * w ∧ 3 * w < border w * 10 + 10 := by
  rw [border, Int.tdiv_eq_ediv_of_nonneg (by omega)]
  omega

theorem middle_ok (p : Img) (ha : p.anims ≠ 0) (h0 : 0 ≤ p.x ∧ 0 ≤ p.y) (hw : 0 ≤ (box p).w ∧ 0 ≤ (box p).h) :
    middle (some p) = .ok ((box p).midX, (box p).midY) := by
  have hfw : p.w.tdiv p.anims = frameW p := by simp [frameW, ha]
  simp only [box] at hw
  simp only [middle, if_neg ha, hfw, Box.midX, Box.midY, box]
  rw [half_nonneg hw.1, half_nonneg hw.2, px_nonneg (show 0 ≤ p.x + frameW p / 2 * 1048576 by omega),
    px_nonneg (show 0 ≤ p.y + p.h / 2 * 1048576 by omega), px_nonneg h0.1, px_nonneg h0.2]
  congr 2
  · omega
  · omega

theorem middle_total (p : Option Img) (h : ∀ q, p = some q → q.anims ≠ 0) : ∃ c, middle p = .ok c := by
  cases p with
  | none => exact ⟨_, rfl⟩
  | some q =>
    rw [middle, if_neg (h q rfl)]
    exact ⟨_, rfl⟩

theorem within_start (size whole : Int) : Within 0 size whole := by
  simp only [Within]
  by_cases h : size ≤ whole
  · exact ⟨Int.le_refl 0, Or.inl (by omega)⟩
  · exact ⟨Int.le_refl 0, Or.inr ⟨by omega, trivial⟩⟩

theorem follows_within {v : View} {c c' : Cam} {l : List (Option Img)} (h : follows v c l = .ok c')
    (hx : Within c.x v.w v.width) (hy : Within c.y v.h v.height) : Within c'.x v.w v.width ∧ Within c'.y v.h v.height := by
  induction l generalizing c with
  | nil =>
    simp only [follows, Out.ok.injEq] at h
    subst h
    exact ⟨hx, hy⟩
  | cons p l ih =>
    simp only [follows, Out.bind_eq_ok] at h
    obtain ⟨c1, h1, h2⟩ := h
    simp only [camera, Out.bind_eq_ok, Out.ok.injEq, if_true] at h1
    obtain ⟨q, _, h1⟩ := h1
    subst h1
    exact ih h2 (follow_within hx) (follow_within hy)

theorem follows_total (v : View) (c : Cam) (l : List (Option Img)) (h : ∀ q, some q ∈ l → q.anims ≠ 0) : ∃ c', follows v c l = .ok c' := by
  induction l generalizing c with
  | nil => exact ⟨c, rfl⟩
  | cons p l ih =>
    obtain ⟨m, hm⟩ := middle_total p fun q hq => h q (by simp [hq])
    simp only [follows, camera, hm, Out.ok_bind]
    exact ih _ fun q hq => h q (List.mem_cons_of_mem _ hq)

theorem follows_again (v : View) (p : Option Img) (m : Int × Int) (hm : middle p = .ok m) (n : Nat) (c : Cam) :
    follows v c (List.replicate n p) =
      .ok ⟨again v.w v.width (border v.w) m.1 n c.x, again v.h v.height (border v.w) m.2 n c.y⟩ := by
  induction n generalizing c with
  | zero => rfl
  | succ n ih =>
    rw [List.replicate_succ]
    simp only [follows, camera, hm, Out.ok_bind, if_true, ih, again]

/-- The camera need not move for this. -/
def Calm (v : View) (c : Cam) (m : Int × Int) : Prop :=
  c.x + border v.w ≤ m.1 ∧ m.1 ≤ c.x + v.w - border v.w ∧ c.y + border v.w ≤ m.2 ∧ m.2 ≤ c.y + v.h - border v.w

theorem camera_calm {v : View} {c : Cam} {p : Option Img} {m : Int × Int} (hm : middle p = .ok m) (h : Calm v c m) :
    camera v true c p = .ok c := by
  simp only [Calm] at h
  simp only [camera, hm, Out.ok_bind, if_true, follow]
  rw [if_neg (show ¬ (m.1 > c.x + v.w - border v.w ∧ c.x < v.width - v.w) by omega),
    if_neg (show ¬ (m.2 > c.y + v.h - border v.w ∧ c.y < v.height - v.h) by omega), if_neg (by omega), if_neg (by omega)]

theorem drawAll_calm (v : View) (c : Cam) (l : List (Option Img × Img))
    (h : ∀ p m, (p, m) ∈ l → ∃ q, middle p = .ok q ∧ Calm v c q) :
    drawAll v c l = .ok (l.map fun x => if x.2.fixed then drawnBox x.2 else place v c (drawnBox x.2), c) := by
  induction l with
  | nil => rfl
  | cons x l ih =>
    obtain ⟨p, m⟩ := x
    have ih := ih fun p m hm => h p m (List.mem_cons_of_mem _ hm)
    obtain ⟨q, hq, hc⟩ := h p m List.mem_cons_self
    rw [drawAll, camera_calm hq hc, Out.ok_bind, ih, Out.ok_bind, Out.ok_bind]
    cases hf : m.fixed <;> simp [hf]

theorem place_shown (v : View) (c : Cam) (r : Box) (h : Meet r ⟨c.x, c.y, v.w, v.h⟩) :
    place v c r = ⟨r.x - c.x + v.left, r.y - c.y + v.top, r.w, r.h⟩ := by
  obtain ⟨a, b, h1, h2⟩ := h
  simp only [Box.has] at h1 h2
  simp only [place]
  rw [if_neg (by omega), if_neg (by omega)]

/-! ### Pieces -/

theorem part_width {w n : Int} (hw : 0 ≤ w) (hn : 1 ≤ n) : w.tdiv (if n = 0 then 1 else n) = w / n := by
  rw [if_neg (by omega), Int.tdiv_eq_ediv_of_nonneg hw]

theorem piece_of {w n k : Int} (hn : 1 ≤ n) (hk : 0 ≤ k ∧ k < n) : Piece w n k (w / n * k) (w / n) := by
  refine ⟨hk.1, hk.2, Int.mul_comm _ _, Int.mul_ediv_self_le (by omega), ?_⟩
  have := Int.lt_mul_ediv_self_add (x := w) (k := n) (by omega)
  rw [Int.mul_add, Int.mul_one]
  exact this

theorem toInt_small {t : Nat} (h : t < 2147483648) : toInt t = t := by
  rw [toInt, BitVec.toInt_eq_toNat_of_lt (by rw [BitVec.toNat_ofNat]; omega), BitVec.toNat_ofNat]
  omega

end Verif.Lemmas.Camera
