import Verif.Model.Collections
/-! # Names and collections -/

namespace Verif.Collections

/-- No two components have the same name (those without name do not count). -/
def Unique (st : St) : Prop := ∀ (i j : Nat) (c d : Comp) (n : String), st[i]? = some c → st[j]? = some d → c.name = some n → d.name = some n → i = j

/-- Object `i` is found under the key. -/
def Finds (st : St) (p : Comp → Bool) (key : Option String) (i : Nat) : Prop := ∃ c, st[i]? = some c ∧ p c = true ∧ c.name = key

/-- No two objects have the same name, and none is listed twice. -/
def Distinct (it : Named) : Prop := (it.map (·.2)).Nodup ∧ (it.map (·.1)).Nodup

end Verif.Collections
