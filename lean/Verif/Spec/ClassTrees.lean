import Verif.Model.ClassTrees
/-! # Specification: classes in the diagrams of the network -/

namespace Verif.ClassTrees

/-- A class is derived from itself, its bases, their bases and so on. -/
inductive Derived (h : Hierarchy) : String → String → Prop
  | self (c : String) : Derived h c c
  | base {c b a : String} (hb : b ∈ h.bases c) (hd : Derived h b a) : Derived h c a

/-- No class has two bases that are both special kinds of `Node`. -/
def Single (h : Hierarchy) : Prop :=
  ∀ c b b', b ∈ h.bases c → b' ∈ h.bases c → Derived h b "Node" → Derived h b' "Node" → b ≠ "Node" → b' ≠ "Node" → b = b'

/-- No class is a base of itself twice. -/
def Distinct (h : Hierarchy) : Prop := ∀ c, (h.bases c).Nodup

end Verif.ClassTrees
