import Verif.Lemmas.ReadBackRun

/-!
# Objects as the conversion sees them
-/

namespace Verif.Model.ReadBack
open Verif.Spec (Dict)
open Verif.Spec.ReadBack
open Verif.Model.Interp
open Verif.Spec.Nest (Store Within)

section
variable {d : Dict} {nm : Text → Name} {un : Name → Text} {W : Names} {lm : Nat} (hf : Fits d W) (hun : ∀ t, un (nm t) = t)
include hf hun

mutual
theorem rep_stands {obj : Nat → Obj} {A : Nat → Prop} (hA : ∀ j, A j → falseO < j) (v : V) (hv : Fine d v) {i : Nat}
    (h : Rep nm lm obj A i v) : Stands d W (view d un W lm obj) i v := by
  have hn : A i → i ≠ nilO ∧ i ≠ trueO ∧ i ≠ falseO := by
    intro hi
    have := hA i hi
    unfold falseO at this
    unfold nilO trueO falseO
    omega
  match v with
  | .nil =>
    unfold Rep at h
    unfold Stands
    subst h
    rfl
  | .bool b =>
    unfold Rep at h
    unfold Stands
    subst h
    cases b <;> rfl
  | .num n =>
    unfold Rep at h
    unfold Stands
    unfold Fine at hv
    have := numText_spec hf.2.1.2.2.2.1.1 hf.2.1.2.2.2.1.2.1 hv
    exact ⟨_, this, by simp only [view, hn h.1, if_false, h.2, this, textOr]⟩
  | .text t =>
    unfold Rep at h
    unfold Stands
    unfold Fine at hv
    have := plain_code hf hv
    exact ⟨_, this, by simp only [view, hn h.1, if_false, h.2, hun, this, textOr]⟩
  | .seq l =>
    unfold Rep at h
    unfold Stands
    unfold Fine at hv
    obtain ⟨h1, xs, h2, h3⟩ := h
    exact ⟨xs, by simp only [view, hn h1, if_false, h2], rep_standsAll hA l hv h3⟩
  | .map es =>
    unfold Rep at h
    unfold Stands
    unfold Fine at hv
    obtain ⟨h1, ps, h2, h3⟩ := h
    exact ⟨_, by simp only [view, hn h1, if_false, h2, if_true], rep_standsPairs hA es hv.2 h3⟩
theorem rep_standsAll {obj : Nat → Obj} {A : Nat → Prop} (hA : ∀ j, A j → falseO < j) (l : List V) (hl : FineAll d l)
    {xs : List Nat} (h : RepAll nm lm obj A xs l) : StandsAll d W (view d un W lm obj) xs l := by
  match l with
  | [] => unfold RepAll at h; unfold StandsAll; exact h
  | v :: l =>
    unfold RepAll at h
    unfold FineAll at hl
    unfold StandsAll
    obtain ⟨x, xs', h1, h2, h3⟩ := h
    exact ⟨x, xs', h1, rep_stands hA v hl.1 h2, rep_standsAll hA l hl.2 h3⟩
theorem rep_standsPairs {obj : Nat → Obj} {A : Nat → Prop} (hA : ∀ j, A j → falseO < j) (es : List (List UInt8 × V))
    (hl : FinePairs d es) {ps : List (Name × Nat)} (h : RepPairs nm lm obj A ps es) :
    StandsPairs d W (view d un W lm obj) (ps.map fun p => (p.2, textOr (Lexer.toCode d (un p.1)))) es := by
  match es with
  | [] => unfold RepPairs at h; unfold StandsPairs; rw [h]; rfl
  | (k, v) :: es =>
    unfold RepPairs at h
    unfold FinePairs at hl
    unfold StandsPairs
    obtain ⟨x, ps', rfl, h2, h3⟩ := h
    have := plain_code hf hl.1
    exact ⟨x, _, _, by rw [List.map_cons]; dsimp only; rw [hun, this]; rfl, this, rep_stands hA v hl.2.1 h2,
      rep_standsPairs hA es hl.2.2 h3⟩
end

end

mutual
theorem stands_within {d : Dict} {W : Names} {σ : Store} (v : V) {a b i : Nat} (hv : Shallow a b v) (h : Stands d W σ i v) :
    Within σ a b i := by
  match v with
  | .nil => unfold Stands at h; exact .leaf h
  | .bool c => unfold Stands at h; exact .leaf h
  | .num n => unfold Stands at h; obtain ⟨c, _, h⟩ := h; exact .leaf h
  | .text n => unfold Stands at h; obtain ⟨c, _, h⟩ := h; exact .leaf h
  | .seq l =>
    unfold Stands at h
    unfold Shallow at hv
    obtain ⟨xs, h1, h2⟩ := h
    obtain ⟨a, rfl⟩ : ∃ a', a = a' + 1 := ⟨a - 1, by omega⟩
    exact .seq h1 (standsAll_within l hv.2 h2)
  | .map es =>
    unfold Stands at h
    unfold Shallow at hv
    obtain ⟨ps, h1, h2⟩ := h
    obtain ⟨b, rfl⟩ : ∃ b', b = b' + 1 := ⟨b - 1, by omega⟩
    exact .map h1 (standsPairs_within es hv.2 h2)
theorem standsAll_within {d : Dict} {W : Names} {σ : Store} (l : List V) {a b : Nat} {xs : List Nat} (hv : ShallowAll a b l)
    (h : StandsAll d W σ xs l) : ∀ x ∈ xs, Within σ a b x := by
  match l with
  | [] => unfold StandsAll at h; subst h; intro x hx; cases hx
  | v :: l =>
    unfold StandsAll at h
    unfold ShallowAll at hv
    obtain ⟨x, xs', rfl, h2, h3⟩ := h
    intro y hy
    rcases List.mem_cons.1 hy with rfl | hy
    · exact stands_within v hv.1 h2
    · exact standsAll_within l hv.2 h3 y hy
theorem standsPairs_within {d : Dict} {W : Names} {σ : Store} (es : List (List UInt8 × V)) {a b : Nat}
    {ps : List (Nat × Text)} (hv : ShallowPairs a b es) (h : StandsPairs d W σ ps es) : ∀ p ∈ ps, Within σ a b p.1 := by
  match es with
  | [] => unfold StandsPairs at h; subst h; intro x hx; cases hx
  | (k, v) :: es =>
    unfold StandsPairs at h
    unfold ShallowPairs at hv
    obtain ⟨x, c, ps', rfl, _, h2, h3⟩ := h
    intro y hy
    rcases List.mem_cons.1 hy with rfl | hy
    · exact stands_within v hv.1 h2
    · exact standsPairs_within es hv.2 h3 y hy
end

end Verif.Model.ReadBack
