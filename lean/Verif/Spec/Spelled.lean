import Verif.Spec.KindProgram
/-!
# Conditions spelled out

A way to write any condition: every And and Or as `NewGroup(word, …).WithBrackets()`, every `Not` around such a group, every condition
given to `Where` in a group of its own.
-/
namespace Query

namespace CondExp

mutual
/-- The condition spelled out. -/
def spelled : CondExp → CondExp
  | .test t => .test t
  | .not e => .not (.brackets (.group false [e.spelled]))
  | .unnot e => e.spelled
  | .fn o e es => .brackets (.group o (e.spelled :: spelledL es))
  | .method o e es => .brackets (.group o (e.spelled :: spelledL es))
  | .group o es => .brackets (.group o (spelledL es))
  | .joinAll o es => .brackets (.group o (spelledL es))
  | .join _ e => e.spelled
  | .brackets e => e.spelled
/-- The conditions spelled out. -/
def spelledL : List CondExp → List CondExp
  | [] => []
  | e :: es => e.spelled :: spelledL es
end

end CondExp

/-- The arguments of a `Where` call spelled out: `Where(NewGroup(LogicalAND, e), …)`. -/
def spelledArgs (es : List CondExp) : List CondExp := es.map fun e => .group false [e.spelled]

/-- The call with its conditions spelled out. -/
def NSCall.spelled : NSCall → NSCall
  | .addWhere es => .addWhere (spelledArgs es)
  | c => c

/-- The call with its conditions spelled out. -/
def KCall.spelled : KCall → KCall
  | .call (.addWhere es) => .call (.addWhere (spelledArgs es))
  | c => c

/-- The program with its conditions spelled out. -/
def KindProg.spelled (p : KindProg) : KindProg := { p with calls := p.calls.map KCall.spelled }

end Query
