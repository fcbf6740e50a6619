import Verif.Spec.Memory
import Verif.Spec.Retable
/-!
# Programs with conditions given their table afterwards, as histories of calls

Specification for C89 in memory: the calls Go makes for a program, in the order it makes them.
-/
namespace Query

mutual
/-- The calls of an expression, where `n` values were made before, and the number of the condition. -/
def ApExp.trace (n : Nat) : ApExp → List Call × Nat
  | .test t => ([.leaf (t.call.gave (.null ⟨[], false⟩ zeroFD))], n)
  | .not e => let x := e.trace n; (x.1 ++ [.negate x.2 true], n + x.1.length)
  | .unnot e => let x := e.trace n; (x.1 ++ [.negate x.2 false], n + x.1.length)
  | .fn o e es =>
    let x := e.trace n
    let y := ApExp.traceL (n + x.1.length) es
    (x.1 ++ (y.1 ++ [if o then .orF x.2 y.2 else .andF x.2 y.2]), n + x.1.length + y.1.length)
  | .method o e es =>
    let x := e.trace n
    let y := ApExp.traceL (n + x.1.length) es
    (x.1 ++ (y.1 ++ [if o then .or x.2 y.2 else .and x.2 y.2]), n + x.1.length + y.1.length)
  | .group o es => let y := ApExp.traceL n es; (y.1 ++ [.newGroup (wordOf o) y.2], n + y.1.length)
  | .joinAll o es =>
    let y := ApExp.traceL n es
    (y.1 ++ [match y.2 with
      | [i] => .join i (wordOf o)
      | is => .newGroup (wordOf o) is], n + y.1.length)
  | .join o e => let x := e.trace n; (x.1 ++ [.join x.2 (wordOf o)], n + x.1.length)
  | .brackets e =>
    let x := e.trace n
    match e.call with
    | .ok (.group _ _ _) => (x.1 ++ [.withBrackets x.2], n + x.1.length)
    | _ => x
  | .table t e => let x := e.trace n; (x.1 ++ [.applyTable x.2 t], n + x.1.length)
  | .spec d e => let x := e.trace n; (x.1 ++ [.applySpec x.2 ((field d.text).gave zeroFD)], n + x.1.length)
/-- The calls of several expressions, from left to right, and the numbers of the conditions. -/
def ApExp.traceL (n : Nat) : List ApExp → List Call × List Nat
  | [] => ([], [])
  | e :: es =>
    let x := e.trace n
    let y := ApExp.traceL (n + x.1.length) es
    (x.1 ++ y.1, x.2 :: y.2)
end

/-- The calls of a method call on the select with number `r` and kind `k`, and the number of the select it makes. -/
def ApCall.trace (k : SelKind) (n r : Nat) : ApCall → List Call × Nat
  | .addWhere es => let y := ApExp.traceL n es; (y.1 ++ [.where_ r y.2], n + y.1.length)
  | .other c => c.trace k n r

/-- The kind of the select a call makes. -/
def ApCall.next (k : SelKind) : ApCall → SelKind
  | .addWhere _ => k
  | .other c => KCall.next k c

/-- The calls one after another. -/
def ApCall.traceAll (k : SelKind) (n r : Nat) : List ApCall → List Call × Nat
  | [] => ([], r)
  | c :: cs =>
    let x := c.trace k n r
    let y := ApCall.traceAll (c.next k) (n + x.1.length) x.2 cs
    (x.1 ++ y.1, y.2)

/-- All calls of a program. -/
def ApProg.trace (n : Nat) (p : ApProg) : List Call × Nat :=
  let x := p.plain.traceFirst n
  let y := ApCall.traceAll p.start (n + x.1.length) x.2 p.calls
  (x.1 ++ y.1, y.2)

/-- The calls of several programs one after another. -/
def ApProg.traceAll (n : Nat) : List ApProg → List Call × List Nat
  | [] => ([], [])
  | p :: ps =>
    let x := p.trace n
    let y := ApProg.traceAll (n + x.1.length) ps
    (x.1 ++ y.1, x.2 :: y.2)

/-- All calls of a program, and those it ends with. -/
def ApProg.traceTo (n : Nat) (x : ApProg × KEnd) : List Call × Nat :=
  let y := x.1.trace n
  let z := x.2.trace x.1.plain.kind (n + y.1.length) y.2
  (y.1 ++ z.1, z.2)

/-- The calls of several such programs one after another. -/
def ApProg.traceEnds (n : Nat) : List (ApProg × KEnd) → List Call × List Nat
  | [] => ([], [])
  | p :: ps =>
    let x := ApProg.traceTo n p
    let y := ApProg.traceEnds (n + x.1.length) ps
    (x.1 ++ y.1, x.2 :: y.2)

end Query
