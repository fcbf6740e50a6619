import Verif.Heap.Store
/-!
# Slices given as values

`NewFieldValue` keeps the `interface{}` it is given (value.go:99-104): for a slice that is the header, and `Values` goes through
the array when it is called (value.go:33-96).  Everywhere else in the model a value of a slice type is its elements (`Val.strs`,
`Val.valuers`, `Val.providers`, `Val.reflSlice`), which is what the slice holds at the time of reading.
-/
namespace Query

/-- The arrays behind slices given as values. -/
structure VMem where
  elems : Store Val
  strs : Store Str

/-- A value as it is kept: slices by header. -/
inductive RVal where
  | plain (v : Val)
  | valuers (s : Sl)
  | providers (s : Sl)
  | strs (s : Sl)
  | reflSlice (s : Sl)

/-- `FieldValue`, value.go:10-13, with the slice it is given kept. -/
structure RFieldValue where
  fd : FieldDef
  value : RVal

/-- `FieldValue.Values`, value.go:33-96, reading the slice now. -/
def RFieldValue.values (m : VMem) (fv : RFieldValue) : Res (List Val) :=
  match fv.value with
  | .valuers s => Res.mapL valuerElem (m.elems.read s)
  | .providers s => Res.mapL providerElem (m.elems.read s)
  | .strs s => .ok ((m.strs.read s).map Val.str)
  | .reflSlice s => Res.mapL reflElem (m.elems.read s)
  | .plain v => (FieldValue.mk fv.fd v).values

/-- A condition on a field and a value, with the slice it is given kept. -/
structure RCmp where
  kind : Kind
  base : CondBase
  fv : RFieldValue

namespace RCmp

/-- `In(field, list)`, lib_in.go:101-106, value.go:99-104. -/
def inC (fn : Str) (v : RVal) : Res RCmp := (field fn).bind fun f => .ok ⟨.inn, newBase lAND false, ⟨f, v⟩⟩

/-- `Values`, embedded from `FieldValue`. -/
def values (m : VMem) (c : RCmp) : Res (List Val) := c.fv.values m

/-- `Render`, see `fieldcRender`: only `In` looks at the values, lib_in.go:46-64. -/
def render (m : VMem) (c : RCmp) (n : Nat) : Res Str :=
  match c.kind with
  | .like => .ok (renderLike .like c.base c.fv.fd n)
  | .ilike => .ok (renderLike .ilike c.base c.fv.fd n)
  | .inn => (c.fv.values m).bind fun vs => .ok (renderIn c.base c.fv.fd vs.length n)
  | k => .ok (renderCmp k c.base c.fv.fd n)

end RCmp

end Query
