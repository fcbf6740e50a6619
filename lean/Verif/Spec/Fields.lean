import Verif.Model.Cond
/-!
# The fields a condition names, and the rest of it
-/
namespace Query

mutual
/-- The fields of a condition's leaves, from left to right. -/
def Cond.leafFields : Cond → List FieldDef
  | .fieldc _ _ fv => [fv.fd]
  | .null _ fd => [fd]
  | .custom _ x => [x.fd]
  | .group _ cs _ => Cond.leafFieldsL cs
/-- The fields of the leaves of several conditions. -/
def Cond.leafFieldsL : List Cond → List FieldDef
  | [] => []
  | c :: cs => c.leafFields ++ Cond.leafFieldsL cs
end

mutual
/-- The condition with all fields blanked: shape, operators, flags and values. -/
def Cond.blank : Cond → Cond
  | .fieldc k b fv => .fieldc k b ⟨⟨[], [], []⟩, fv.value⟩
  | .null b _ => .null b ⟨[], [], []⟩
  | .custom b x => .custom b { x with fd := ⟨[], [], []⟩ }
  | .group b cs br => .group b (Cond.blankL cs) br
/-- Several conditions with all fields blanked. -/
def Cond.blankL : List Cond → List Cond
  | [] => []
  | c :: cs => c.blank :: Cond.blankL cs
end

end Query
