import Verif.Spec.KindProgram
/-!
# Conditions that say the same

The laws by which a program may write a condition in another way, as relations on expressions of the condition API alone: no row and no
text is mentioned.
-/
namespace Query

/-- The two conditions say the same by the laws of conjunction, disjunction and negation. -/
inductive SameCond : CondExp → CondExp → Prop
  | refl (a) : SameCond a a
  | symm {a b} : SameCond a b → SameCond b a
  | trans {a b c} : SameCond a b → SameCond b c → SameCond a c
  /-- inside `Not` -/
  | inNot {a b} : SameCond a b → SameCond (.not a) (.not b)
  /-- the first operand -/
  | inFirst {o a b es} : SameCond a b → SameCond (.fn o a es) (.fn o b es)
  /-- another operand -/
  | inMore {o e a b pre post} : SameCond a b → SameCond (.fn o e (pre ++ a :: post)) (.fn o e (pre ++ b :: post))
  /-- `a.And(es...)` is `And(a, es...)` -/
  | method {o a es} : SameCond (.method o a es) (.fn o a es)
  /-- `NewGroup(AND, a, es...)` is `And(a, es...)` -/
  | group {o a es} : SameCond (.group o (a :: es)) (.fn o a es)
  /-- `AND.Join(a, es...)` is `And(a, es...)` -/
  | joinAll {o a es} : SameCond (.joinAll o (a :: es)) (.fn o a es)
  /-- the word before a condition is not part of it -/
  | join {o a} : SameCond (.join o a) a
  /-- brackets change nothing -/
  | brackets {a} : SameCond (.brackets a) a
  /-- `And(a)` is `a` -/
  | one {o a} : SameCond (.fn o a []) a
  /-- operands in another order -/
  | order {o a b es fs} : (a :: es).Perm (b :: fs) → SameCond (.fn o a es) (.fn o b fs)
  /-- `And(And(a, es...), fs...)` is `And(a, es..., fs...)` -/
  | assoc {o a es fs} : SameCond (.fn o (.fn o a es) fs) (.fn o a (es ++ fs))
  /-- an operand twice -/
  | twice {o a es} : SameCond (.fn o a (a :: es)) (.fn o a es)
  /-- `And(a, Or(b, es...))` is `Or(And(a, b), And(a, e)...)`, and the same with the words exchanged -/
  | distrib {o a b es} : SameCond (.fn o a [.fn (!o) b es]) (.fn (!o) (.fn o a [b]) (es.map fun e => .fn o a [e]))
  /-- `Not(And(a, es...))` is `Or(Not(a), Not(e)...)`, and the same with the words exchanged -/
  | deMorgan {o a es} : SameCond (.not (.fn o a es)) (.fn (!o) (.not a) (es.map .not))
  /-- `Not(Not(a))` is `a` -/
  | notNot {a} : SameCond (.not (.not a)) a
  /-- `In(c, w, ws...)` is `Or(EqualTo(c, w), EqualTo(c, ws)...)`; `v` is the list as it is passed, a pair is a value as it is passed
  and what it stands for -/
  | isIn {c v} {x : Val × Val} {xs : List (Val × Val)} : SameCond (.test (.isIn c v (x.2 :: xs.map (·.2))))
      (.fn true (.test (.cmp .eq c x.1 x.2)) (xs.map fun y => .test (.cmp .eq c y.1 y.2)))
  /-- `In` of two lists one after the other -/
  | isInTwo {c v u u' ws ws'} : ws ≠ [] → ws' ≠ [] →
      SameCond (.test (.isIn c v (ws ++ ws'))) (.fn true (.test (.isIn c u ws)) [.test (.isIn c u' ws')])

/-- The calls with some conditions of the Where calls written in another way. -/
inductive Exchanged : List KCall → List KCall → Prop
  | refl (l) : Exchanged l l
  /-- a condition that says the same -/
  | cond {l pre post es fs a b} : Exchanged l (pre ++ .call (.addWhere (es ++ a :: fs)) :: post) → SameCond a b →
      Exchanged l (pre ++ .call (.addWhere (es ++ b :: fs)) :: post)
  /-- `Where(…, And(a, as...), …)` is `Where(…, a, as..., …)` -/
  | unpack {l pre post es fs a as} : Exchanged l (pre ++ .call (.addWhere (es ++ .fn false a as :: fs)) :: post) →
      Exchanged l (pre ++ .call (.addWhere (es ++ (a :: as) ++ fs)) :: post)
  /-- and back -/
  | pack {l pre post es fs a as} : Exchanged l (pre ++ .call (.addWhere (es ++ (a :: as) ++ fs)) :: post) →
      Exchanged l (pre ++ .call (.addWhere (es ++ .fn false a as :: fs)) :: post)

end Query
