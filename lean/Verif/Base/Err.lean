import Verif.Base.Str
/-!
# Go error values

The errors this package makes: `errors.New`, `fmt.Errorf("%w: …")`, `errors.Join`; their text, and `errors.Is`.
-/
namespace Query

/-- Error values. -/
inductive ErrVal where
  /-- `query.Error`, base.go:13: `errors.New("query")` -/
  | root
  /-- an error that is none of the package's: `errors.New(s)` elsewhere -/
  | foreign (s : Str)
  /-- `fmt.Errorf("%w: msg", e)` -/
  | wrapf (e : ErrVal) (msg : Str)
  /-- `errors.Join(e, f)`, both non-nil -/
  | join (e f : ErrVal)
  deriving DecidableEq, Repr

namespace ErrVal

/-- `err.Error()`. -/
def text : ErrVal → Str
  | root => c!"query"
  | foreign s => s
  | wrapf e msg => e.text ++ c!": " ++ msg
  | join e f => e.text ++ c!"\n" ++ f.text

/-- `errors.Is(err, query.Error)`. -/
def isQuery : ErrVal → Bool
  | root => true
  | foreign _ => false
  | wrapf e _ => e.isQuery
  | join e f => e.isQuery || f.isQuery

end ErrVal

/-- What a panic carries. -/
inductive PanicVal where
  /-- an error value: `panic(err)` -/
  | error (e : ErrVal)
  /-- a string: `panic(fmt.Sprintf(…))` -/
  | text (s : Str)
  /-- a `runtime.Error`: a nil interface called or asserted -/
  | runtime
  deriving DecidableEq, Repr

/-- The panic carries an error that `errors.Is` recognises as `query.Error`. -/
def PanicVal.isQuery : PanicVal → Bool
  | .error e => e.isQuery
  | .text _ => false
  | .runtime => false

end Query
