import Verif.Spec.GC

/-! Specification of the memory report, in terms of sets of objects. -/

namespace Verif.Spec.Report

/-- `l` lists what satisfies `p`, each once: its length is their number. -/
def Lists (p : Nat → Prop) (l : List Nat) : Prop := l.Nodup ∧ ∀ x, x ∈ l ↔ p x

/-- Memory is cleaned by itself: always, or when more than four fifths of the limit are in use. -/
def Due (normal always : Prop) (used limit : Nat) : Prop := always ∨ (normal ∧ 4 * limit < 5 * used)

end Verif.Spec.Report
