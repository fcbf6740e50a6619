import Verif.Spec.Passed
import Verif.Spec.Reading
/-!
# Other values in their places

Specification: the same conditions, builders, memory and calls with every value given for a column replaced by another one, and nothing
else changed.  The replacement is any function on values: what a slice holds now instead of what it held at the call, what `Value()`
returns now, or just something else.
-/
namespace Query

/-- The value for the column replaced. -/
def FieldValue.given (φ : Val → Val) (fv : FieldValue) : FieldValue := ⟨fv.fd, φ fv.value⟩

mutual
/-- The values of the comparisons in a condition replaced.  A user's own condition keeps what it has. -/
def Cond.given (φ : Val → Val) : Cond → Cond
  | .fieldc k b fv => .fieldc k b (fv.given φ)
  | .null b fd => .null b fd
  | .custom b x => .custom b x
  | .group b cs br => .group b (Cond.givenL φ cs) br
/-- The same for every condition of a list. -/
def Cond.givenL (φ : Val → Val) : List Cond → List Cond
  | [] => []
  | c :: cs => c.given φ :: Cond.givenL φ cs
end

/-- The values in a group replaced. -/
def Group.given (φ : Val → Val) (g : Group) : Group := ⟨g.base, g.conds.map (Cond.given φ), g.brackets⟩

/-- The values in a select replaced. -/
def BaseSelect.given (φ : Val → Val) (q : BaseSelect) : BaseSelect := ⟨q.op, q.baseTable, q.joins, q.fields, ⟨q.where_.group.given φ⟩⟩

/-- The values in a select of many rows replaced. -/
def SelectMany.given (φ : Val → Val) (q : SelectMany) : SelectMany := { q with base := q.base.given φ }

/-- The values in a condition or builder replaced. -/
def PV.given (φ : Val → Val) : PV → PV
  | .cond c => .cond (c.given φ)
  | .base q => .base (q.given φ)
  | .single q => .single ⟨q.base.given φ⟩
  | .many q => .many (q.given φ)
  | .count q => .count { q with base := q.base.given φ }
  | .insert q => .insert { q with setValues := q.setValues.map (FieldValue.given φ) }
  | .update q => .update { q with where_ := q.where_.given φ, setValues := q.setValues.map (FieldValue.given φ) }
  | .delete q => .delete { q with where_ := q.where_.given φ }
  | .joinB q => .joinB (q.given φ)
  | .joinS q => .joinS ⟨q.base.given φ⟩
  | .joinM q => .joinM (q.given φ)

/-- The values given in a call replaced. -/
def Call.given (φ : Val → Val) : Call → Call
  | .leaf c => .leaf (c.given φ)
  | .insertFrom r vs => .insertFrom r (vs.map (FieldValue.given φ))
  | .values r vs => .values r (vs.map (FieldValue.given φ))
  | .updateFrom r vs => .updateFrom r (vs.map (FieldValue.given φ))
  | .set r vs => .set r (vs.map (FieldValue.given φ))
  | c => c

/-- The values in a condition in memory replaced: the elements of a group are in its array. -/
def HCond.given (φ : Val → Val) : HCond → HCond
  | .leaf c => .leaf (c.given φ)
  | .group b s br => .group b s br

/-- The values in the memory replaced. -/
def Mem.given (φ : Val → Val) (m : Mem) : Mem :=
  { m with conds := m.conds.map (List.map (HCond.given φ)), vals := m.vals.map (List.map (FieldValue.given φ)) }

/-- The values in a condition or builder in memory replaced: builders hold slice headers only. -/
def HV.given (φ : Val → Val) : HV → HV
  | .cond c => .cond (c.given φ)
  | x => x

/-- What the values of a program are at some time: `.other n` stands for the `n`-th of the slices the program keeps, every other
value for itself. -/
def Val.held (kept : List RVal) (m : VMem) : Val → Val
  | .other n => match kept[n]? with
    | some v => v.now m
    | none => .other n
  | v => v

/-- A history has been run; since then the values given have become `φ` of what they were, and only now the reading call `l` on the
value number `r` is made: it gives `out`, whatever arrays of parameters there are and for every depth bound that is large enough. -/
def ReadsLater (pol : Policy) (gr : Grow) (cs : List Call) (φ : Val → Val) (r : Nat) (l : Look) (out : Res POut) : Prop :=
  ∃ m hs h, runHeap pol Mem.empty [] cs = some (m, hs) ∧ hs[r]? = some h ∧
    ∃ D, ∀ d ≥ D, ∀ par, RepRes (fun a b => RepOut a.1 a.2 b) ((h.given φ).look gr d ⟨m.given φ, par⟩ l) out

end Query
