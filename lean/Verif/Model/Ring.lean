/-!
# Ring buffers

The code keeps fixed-length memories with a pointer: `memory[pointer] = x; pointer = (pointer + 1) % n`
(`/repo/pywr/_core.pyx:1526-1536` RollingVirtualStorage, `/repo/pywr/parameters/_parameters.pyx:2136-2150`
FlowDelayParameter, `:2228-2252` RollingMeanFlowNodeParameter, `/repo/pywr/recorders/_recorders.pyx:1590-1607, 1680-1700`).
-/

namespace Verif

/-- Memory and pointer. -/
structure Ring (α : Type) where
  mem : List α
  ptr : Nat
deriving DecidableEq, Repr

namespace Ring
variable {α : Type}

/-- `np.full(n, x)` and pointer zero. -/
def full (n : Nat) (x : α) : Ring α := ⟨List.replicate n x, 0⟩

/-- `memory[pointer]`. -/
def read (r : Ring α) : Option α := r.mem[r.ptr]?

/-- `memory[pointer] = x; pointer = (pointer + 1) % n`. -/
def push (r : Ring α) (x : α) : Ring α := ⟨r.mem.set r.ptr x, (r.ptr + 1) % r.mem.length⟩

end Ring
end Verif
