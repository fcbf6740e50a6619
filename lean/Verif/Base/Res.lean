import Verif.Base.Str
/-!
# Results of Go calls

A Go call returns a value, returns a non-nil error, or panics.
-/
namespace Query

/-- Reasons of the errors the package returns (all wrap `query.Error`, base.go:11-14). -/
inductive GoErr
  /-- field_name.go:23 -/
  | nameQuote
  /-- field_name.go:25 -/
  | nameDoubleQuote
  /-- field_name.go:27 -/
  | nameSpace
  /-- field_name.go:29 -/
  | nameDots
  /-- field_name.go:31 -/
  | nameEmpty
  /-- field_name.go:33 -/
  | nameDotEnd
  /-- field_name.go:35 -/
  | nameDotStart
  /-- field_definition.go:58 -/
  | badField
  /-- table_ident.go:58 -/
  | badTable
  /-- insert.go:42 -/
  | noInsertFields
  /-- insert.go:44, update.go:64, delete.go:34 -/
  | noTable
  /-- update.go:60, delete.go:32 -/
  | noConditions
  /-- update.go:62 -/
  | noSetFields
  /-- values_map.go:21 -/
  | badMapKey
  deriving DecidableEq, Repr

/-- Reasons of panics. -/
inductive GoPanic
  /-- `panic(err)` with an error value (field_definition.go:82, table_ident.go:72, ordering.go:62,74). -/
  | fromErr (e : GoErr)
  /-- method call on a nil interface value -/
  | nilDeref
  /-- index out of range -/
  | index
  /-- failed type assertion -/
  | typeAssert
  /-- value.go:87 -/
  | valuerErr
  /-- ordering.go:95 -/
  | badDirection
  /-- fields.go:76 -/
  | badFieldArg
  /-- recursion deeper than the bound given to a function of `Verif/Heap`; no panic of the Go code -/
  | deep
  deriving DecidableEq, Repr

/-- Outcome of a Go call. -/
inductive Res (α : Type) where
  | ok (a : α)
  | err (e : GoErr)
  | panic (p : GoPanic)
  deriving DecidableEq, Repr

namespace Res

/-- Sequencing: an error or a panic ends the computation. -/
def bind {α β : Type} (x : Res α) (f : α → Res β) : Res β :=
  match x with
  | ok a => f a
  | err e => err e
  | panic p => panic p

instance : Monad Res where
  pure := ok
  bind := Res.bind

/-- The error of a call turned into a panic (`if err != nil { panic(err) }`). -/
def must {α : Type} : Res α → Res α
  | ok a => ok a
  | err e => panic (.fromErr e)
  | panic p => panic p

/-- A loop that fills a result slice element by element. -/
def mapL {α β : Type} (f : α → Res β) : List α → Res (List β)
  | [] => ok []
  | a :: as => (f a).bind fun b => (mapL f as).bind fun bs => ok (b :: bs)

/-- Did the call return a value? -/
def isOk {α : Type} : Res α → Bool
  | ok _ => true
  | _ => false

@[simp] theorem bind_ok {α β : Type} (a : α) (f : α → Res β) : (ok a).bind f = f a := rfl
@[simp] theorem bind_err {α β : Type} (e : GoErr) (f : α → Res β) : (err e : Res α).bind f = err e := rfl
@[simp] theorem bind_panic {α β : Type} (p : GoPanic) (f : α → Res β) : (panic p : Res α).bind f = panic p := rfl
@[simp] theorem pure_def {α : Type} (a : α) : (pure a : Res α) = ok a := rfl
@[simp] theorem bind_def {α β : Type} (x : Res α) (f : α → Res β) : (x >>= f) = x.bind f := rfl

theorem bind_eq_ok {α β : Type} {x : Res α} {f : α → Res β} {b : β} :
    x.bind f = ok b ↔ ∃ a, x = ok a ∧ f a = ok b := by
  cases x <;> simp

end Res
end Query
