import Verif.Base.Err
import Verif.Base.Str
/-!
# What errors should say
-/
namespace Query

/-- An error of this package: `errors.Is` finds `query.Error`, and the text is `query: ` and a reason. -/
structure GoodErr (e : ErrVal) : Prop where
  is : e.isQuery = true
  says : ∃ r, r ≠ [] ∧ e.text = c!"query: " ++ r

/-- What each message of `FieldName.Validate` says of the name. -/
inductive NameFault : Str → Str → Prop
  | quote {fn} (h : '\'' ∈ fn) : NameFault c!"query: field name contains quote character" fn
  | doubleQuote {fn} (h : '"' ∈ fn) : NameFault c!"query: field name contains double quote character" fn
  | space {fn} (h : ' ' ∈ fn) : NameFault c!"query: field name contains space character" fn
  | dots {a b d} : NameFault c!"query: too many dots inside field name" (a ++ '.' :: b ++ '.' :: d)
  | empty : NameFault c!"query: empty field name" []
  | dotEnd {a} : NameFault c!"query: field name could not end with dot" (a ++ ['.'])
  | dotStart {a} : NameFault c!"query: field name could not start with dot" ('.' :: a)

/-- A failed call that also returns a pointer or a slice returns nil; one that succeeds returns it and no error. -/
inductive Answer {α : Type} : Option α × Option ErrVal → Prop
  | done (a : α) : Answer (some a, none)
  | failed {e : ErrVal} (h : GoodErr e) : Answer (none, some e)

/-- A failed build returns no text and no parameters; one that succeeds returns a text and no error. -/
inductive BuildAnswer {α : Type} : Str × List α × Option ErrVal → Prop
  | done (s : Str) (vs : List α) (h : s ≠ []) : BuildAnswer (s, vs, none)
  | failed {e : ErrVal} (h : GoodErr e) : BuildAnswer ([], [], some e)

end Query
