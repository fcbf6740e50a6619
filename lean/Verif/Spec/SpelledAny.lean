import Verif.Spec.Spelled
import Verif.Spec.Memory
/-!
# Programs of every kind with their conditions spelled out
-/
namespace Query

/-- The call of an UPDATE with its conditions spelled out. -/
def NUCall.spelled : NUCall → NUCall
  | .addWhere es => .addWhere (spelledArgs es)
  | .set l => .set l

/-- The end of a program with its conditions spelled out. -/
def KEnd.spelled : KEnd → KEnd
  | .delete more => .delete (more.map spelledArgs)
  | .update sets more => .update sets (more.map NUCall.spelled)
  | e => e

namespace AnyProg

/-- The program with its conditions spelled out. -/
def spelled : AnyProg → AnyProg
  | .select p => .select { p with calls := p.calls.map NSCall.spelled }
  | .count p => .count { p with calls := p.calls.map NSCall.spelled }
  | .insert p => .insert p
  | .update p => .update { p with calls := p.calls.map NUCall.spelled }
  | .delete p => .delete { p with wheres := p.wheres.map spelledArgs }
  | .kind p e => .kind p.spelled e.spelled

/-- A select that is read has no ordering or page that a change of kind forgets. -/
def Settled : AnyProg → Prop
  | .kind p .read => KindProg.Kept p.start p.calls
  | _ => True

end AnyProg

end Query
