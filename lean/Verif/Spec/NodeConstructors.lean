import Verif.Spec.NodeLoading
/-!
# Specification: arguments, defaults and attributes of nodes

For each class of nodes: the arguments, what is accepted for each of them, which attributes they become, and what these are if the argument is left out.
-/

namespace Verif.NodeLoading

/-- What may be given for an argument, and what it then means. -/
inductive Accepts
  /-- A number or a parameter. -/
  | amount
  /-- The same, or `None`, which means `null`. -/
  | orNull (null : Value)
  /-- A number. -/
  | fixed
  /-- A number, or `None` for not given. -/
  | start
  /-- Anything. -/
  | free

/-- The meaning of a value, if it is accepted. -/
def Accepts.meaning : Accepts → Value → Option Value
  | _, .num q => some (.num q)
  | _, .inf => some .inf
  | .amount, .param p => some (.param p)
  | .orNull _, .param p => some (.param p)
  | .orNull null, .none => some null
  | .start, .none => some .none
  | .free, v => some v
  | _, _ => none

/-- One attribute of a node or of one of its sub-links: the argument it is made of (`none`: it is not an argument), what is accepted for it, and its value if the argument is left out. -/
structure Row where
  cell : Key
  arg : Option String
  accepts : Accepts
  default : Value

/-- The value of the attribute for a call. -/
def Row.value (r : Row) (kw : Kw) : Option Value :=
  match r.arg with
  | none => some r.default
  | some k =>
    match kw.lookup k with
    | none => some r.default
    | some (.one v) => r.accepts.meaning v
    | some (.many _) => none

/-- A call makes the node `o`: every argument is one of the class and has a value that is accepted, and the attributes are those of the description, the later ones before the earlier ones. -/
def Makes (rows : List Row) (kw : Kw) (o : Obj) : Prop :=
  (∀ e ∈ kw, ∃ r ∈ rows, r.arg = some e.1) ∧ (∀ r ∈ rows, (r.value kw).isSome) ∧
    ∀ k, o k = (rows.reverse.find? fun r => decide (r.cell = k)).bind fun r => r.value kw

/-- An attribute of the node with the name of the argument. -/
def own (k : String) (a : Accepts) (d : Value) : Row := ⟨(none, k), some k, a, d⟩

/-- Limits, cost and conversion factor of a node. -/
def nodeRows : List Row :=
  [own "min_flow" (.orNull (.num 0)) (.num 0), own "max_flow" (.orNull .inf) .inf, own "cost" .amount (.num 0), own "conversion_factor" .fixed (.num 1)]

/-- Limits, initial volume and cost of a storage. -/
def volumeRows : List Row :=
  [own "min_volume" (.orNull (.num 0)) (.num 0), own "max_volume" .amount (.num 0), own "initial_volume" .start .none, own "initial_volume_pc" .start .none,
    own "cost" .amount (.num 0)]

/-- The attributes of the classes. -/
inductive Attributes : Class → List Row → Prop
  | node : Attributes node nodeRows
  | lossLink : Attributes lossLink (own "loss_factor" .free (.num 0) :: nodeRows)
  | catchment : Attributes catchment
      (nodeRows ++ [⟨(none, "min_flow"), some "flow", .orNull (.num 0), .num 0⟩, ⟨(none, "max_flow"), some "flow", .orNull .inf, .num 0⟩])
  | storage : Attributes storage (volumeRows ++ [own "level" (.orNull (.num 0)) (.num 0), own "area" (.orNull (.num 0)) (.num 0)])
  | virtualStorage : Attributes virtualStorage volumeRows
  | gauge (extra : Nat) : Attributes (gauge extra)
      ([own "min_flow" (.orNull (.num 0)) (.num 0), own "max_flow" (.orNull .inf) .inf, own "conversion_factor" .fixed (.num 1),
        ⟨(some 0, "cost"), some "mrf_cost", .amount, .num 0⟩, ⟨(some 1, "cost"), some "cost", .amount, .num 0⟩,
        ⟨(some 0, "max_flow"), some "mrf", .orNull .inf, .num 0⟩, ⟨(some 1, "max_flow"), none, .free, .inf⟩] ++
      (List.range extra).flatMap fun i : Nat => [⟨(some (i + 2), "cost"), none, .free, .num 0⟩, ⟨(some (i + 2), "max_flow"), none, .free, .inf⟩])

end Verif.NodeLoading
