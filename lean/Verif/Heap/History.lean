import Verif.Heap.Build
/-!
# Histories of calls

Every call makes one new value, numbered by its position in the history; its operands are values made earlier.  `Call.pure`
gives the value a call would make if builders were plain values (the model of `Verif/Model`), `Call.heap` what it makes when
slices share arrays.  A call on the wrong kind of value, or one that panics or does not return, ends the history
(`none`).
-/
namespace Query

/-- Values as in `Verif/Model`. -/
inductive PV where
  | cond (c : Cond)
  | base (q : BaseSelect)
  | single (q : SelectSingle)
  | many (q : SelectMany)
  | count (q : CountB)
  | insert (q : InsertB)
  | update (q : UpdateB)
  | delete (q : DeleteB)
  /-- a join without condition yet -/
  | joinB (q : BaseSelect)
  | joinS (q : SelectSingle)
  | joinM (q : SelectMany)

/-- Values with slices in memory. -/
inductive HV where
  | cond (c : HCond)
  | base (q : HBase)
  | single (q : HBase)
  | many (q : HMany)
  | count (q : HBase) (fd : FieldDef)
  | insert (q : HInsert)
  | update (q : HUpdate)
  | delete (q : HDelete)
  | joinB (q : HBase)
  | joinS (q : HBase)
  | joinM (q : HMany)

/-- A call; `r` is the operand the call extends or copies, `args` are conditions given as arguments. -/
inductive Call where
  /-- a condition on a field made by `EqualTo`, `In`, `IsNull`, … or by the user -/
  | leaf (c : Cond)
  | newGroup (j : Str) (args : List Nat)
  | andF (r : Nat) (args : List Nat)
  | orF (r : Nat) (args : List Nat)
  | and (r : Nat) (args : List Nat)
  | or (r : Nat) (args : List Nat)
  | negate (r : Nat) (n : Bool)
  | join (r : Nat) (j : Str)
  | withBrackets (r : Nat)
  | applySpec (r : Nat) (spec : FieldDef)
  | applyTable (r : Nat) (t : Str)
  | selectFrom (p : TableParam)
  | fields (r : Nat) (fs : List FieldDef)
  | where_ (r : Nat) (args : List Nat)
  | joinTable (r : Nat) (right : TableIdent) (joinType : Int)
  | on (r : Nat) (left right : FieldDef)
  | single (r : Nat)
  | many (r : Nat)
  /-- the embedded `BaseSelectBuilder` of a single or many builder (select_single.go:4-6, select_many.go:12-18); a method of
  `BaseSelectBuilder` that these types do not define themselves is called on it -/
  | embedded (r : Nat)
  | offset (r : Nat) (n : Nat)
  | limit (r : Nat) (n : Int)
  | orderBy (r : Nat) (os : List FieldSorting)
  | count (r : Nat) (fs : List Str)
  | insertInto (p : TableParam)
  | insertFrom (r : Nat) (vs : List FieldValue)
  | values (r : Nat) (vs : List FieldValue)
  | update (p : TableParam)
  | updateFrom (r : Nat) (vs : List FieldValue)
  | set (r : Nat) (vs : List FieldValue)
  | delete (p : TableParam)
  | deleteFrom (r : Nat)

/-- The result of a call that did not panic. -/
def Res.toOption {α : Type} : Res α → Option α
  | .ok a => some a
  | _ => none

/-- The conditions among the values with these numbers. -/
def getConds (ps : List PV) : List Nat → Option (List Cond)
  | [] => some []
  | i :: is =>
    match ps[i]?, getConds ps is with
    | some (.cond c), some cs => some (c :: cs)
    | _, _ => none

/-- The conditions among the values with these numbers. -/
def getCondsH (hs : List HV) : List Nat → Option (List HCond)
  | [] => some []
  | i :: is =>
    match hs[i]?, getCondsH hs is with
    | some (.cond c), some cs => some (c :: cs)
    | _, _ => none

/-- The value a call makes, as in `Verif/Model`. -/
def Call.pure (ps : List PV) : Call → Option PV
  | .leaf c => if c.asGroup.isSome then none else some (.cond c)
  | .newGroup j args => (getConds ps args).map fun cs => .cond (Query.newGroup j cs).toCond
  | .andF r args =>
    match ps[r]?, getConds ps args with
    | some (.cond c), some cs => some (.cond (andC c cs))
    | _, _ => none
  | .orF r args =>
    match ps[r]?, getConds ps args with
    | some (.cond c), some cs => some (.cond (orC c cs))
    | _, _ => none
  | .and r args =>
    match ps[r]?, getConds ps args with
    | some (.cond c), some cs => some (.cond (c.and cs))
    | _, _ => none
  | .or r args =>
    match ps[r]?, getConds ps args with
    | some (.cond c), some cs => (c.or cs).toOption.map .cond
    | _, _ => none
  | .negate r n =>
    match ps[r]? with
    | some (.cond c) => some (.cond (c.setNegate n))
    | _ => none
  | .join r j =>
    match ps[r]? with
    | some (.cond c) => some (.cond (c.join j))
    | _ => none
  | .withBrackets r =>
    match ps[r]? with
    | some (.cond (.group b cs _)) => some (.cond (.group b cs true))
    | _ => none
  | .applySpec r spec =>
    match ps[r]? with
    | some (.cond c) => some (.cond (c.applyFieldSpec spec))
    | _ => none
  | .applyTable r t =>
    match ps[r]? with
    | some (.cond c) => some (.cond (c.applyFieldTable t))
    | _ => none
  | .selectFrom p => (Query.selectFrom p).toOption.map .base
  | .fields r fs =>
    match ps[r]? with
    | some (.base q) => some (.base (q.setFields fs))
    | some (.single q) => some (.single (q.setFields fs))
    | some (.many q) => some (.many (q.setFields fs))
    | _ => none
  | .where_ r args =>
    match ps[r]?, getConds ps args with
    | some (.base q), some cs => some (.base (q.addWhere cs))
    | some (.single q), some cs => some (.single (q.addWhere cs))
    | some (.many q), some cs => some (.many (q.addWhere cs))
    | some (.update q), some cs => some (.update (q.addWhere cs))
    | some (.delete q), some cs => some (.delete (q.addWhere cs))
    | _, _ => none
  | .joinTable r t j =>
    match ps[r]? with
    | some (.base q) => some (.joinB (q.joinIdent t j))
    | some (.single q) => some (.joinS (q.joinIdent t j))
    | some (.many q) => some (.joinM (q.joinIdent t j))
    | _ => none
  | .on r l x =>
    match ps[r]? with
    | some (.joinB q) => (q.on l x).toOption.map .base
    | some (.joinS q) => (q.on l x).toOption.map .single
    | some (.joinM q) => (q.on l x).toOption.map .many
    | _ => none
  | .single r =>
    match ps[r]? with
    | some (.base q) => some (.single (selectSingleFromBase q))
    | _ => none
  | .many r =>
    match ps[r]? with
    | some (.base q) => some (.many (selectManyFromBase q))
    | _ => none
  | .embedded r =>
    match ps[r]? with
    | some (.single q) => some (.base q.base)
    | some (.many q) => some (.base q.base)
    | _ => none
  | .offset r n =>
    match ps[r]? with
    | some (.many q) => some (.many (q.setOffset n))
    | _ => none
  | .limit r n =>
    match ps[r]? with
    | some (.many q) => some (.many (q.setLimit n))
    | _ => none
  | .orderBy r os =>
    match ps[r]? with
    | some (.many q) => some (.many (q.addOrder os))
    | _ => none
  | .count r fs =>
    match ps[r]? with
    | some (.base q) => (Query.count q fs).toOption.map .count
    | some (.many q) => (Query.count q.base fs).toOption.map .count
    | _ => none
  | .insertInto p => some (.insert (Query.insertInto p))
  | .insertFrom r vs =>
    match ps[r]? with
    | some (.base q) => some (.insert (q.insertInto vs))
    | _ => none
  | .values r vs =>
    match ps[r]? with
    | some (.insert q) => some (.insert (q.addValues vs))
    | _ => none
  | .update p => some (.update (Query.update p))
  | .updateFrom r vs =>
    match ps[r]? with
    | some (.base q) => some (.update (q.update vs))
    | some (.single q) => some (.update (q.update vs))
    | some (.many q) => some (.update (q.update vs))
    | _ => none
  | .set r vs =>
    match ps[r]? with
    | some (.update q) => some (.update (q.set vs))
    | _ => none
  | .delete p => some (.delete (Query.delete p))
  | .deleteFrom r =>
    match ps[r]? with
    | some (.base q) => some (.delete q.delete)
    | some (.single q) => some (.delete q.delete)
    | some (.many q) => some (.delete q.delete)
    | _ => none

/-- A bound for the depth of groups in groups that contain no group twice on the way down: the number of condition cells.
Deeper means that a group contains itself, and the Go code does not return. -/
def Mem.depth (m : Mem) : Nat := (m.conds.map List.length).sum + 1

/-- The field `Count` counts, count.go:43-49. -/
def countedField : List Str → Res FieldDef
  | f :: _ => field f
  | [] => field c!"*"

/-- The value a call makes in memory, and the memory after it. -/
def Call.heap (pol : Policy) (m : Mem) (hs : List HV) : Call → Option (Mem × HV)
  | .leaf c => if c.asGroup.isSome then none else some (m, .cond (.leaf c))
  | .newGroup j args => (getCondsH hs args).map fun cs =>
    let r := newGroupH m.conds j cs
    ({ m with conds := r.1 }, .cond r.2.toCond)
  | .andF r args =>
    match hs[r]?, getCondsH hs args with
    | some (.cond c), some cs =>
      let x := andH pol.conds m.conds c cs
      some ({ m with conds := x.1 }, .cond x.2)
    | _, _ => none
  | .orF r args =>
    match hs[r]?, getCondsH hs args with
    | some (.cond c), some cs =>
      let x := orH pol.conds m.conds c cs
      some ({ m with conds := x.1 }, .cond x.2)
    | _, _ => none
  | .and r args =>
    match hs[r]?, getCondsH hs args with
    | some (.cond c), some cs =>
      let x := c.and pol.conds m.conds cs
      some ({ m with conds := x.1 }, .cond x.2)
    | _, _ => none
  | .or r args =>
    match hs[r]?, getCondsH hs args with
    | some (.cond c), some cs => (c.or pol.conds m.conds cs).toOption.map fun x => ({ m with conds := x.1 }, .cond x.2)
    | _, _ => none
  | .negate r n =>
    match hs[r]? with
    | some (.cond c) => some (m, .cond (c.setNegate n))
    | _ => none
  | .join r j =>
    match hs[r]? with
    | some (.cond c) => some (m, .cond (c.join j))
    | _ => none
  | .withBrackets r =>
    match hs[r]? with
    | some (.cond (.group b s _)) => some (m, .cond (.group b s true))
    | _ => none
  | .applySpec r spec =>
    match hs[r]? with
    | some (.cond c) => (applySpecH m.depth m.conds spec c).map fun x => ({ m with conds := x.1 }, .cond x.2)
    | _ => none
  | .applyTable r t =>
    match hs[r]? with
    | some (.cond c) => (applyTableH m.depth m.conds t c).map fun x => ({ m with conds := x.1 }, .cond x.2)
    | _ => none
  | .selectFrom p => (selectFromH m p).toOption.map fun x => (x.1, .base x.2)
  | .fields r fs =>
    match hs[r]? with
    | some (.base q) =>
      let x := q.setFields m fs
      some (x.1, .base x.2)
    | some (.single _) =>
      let z := zeroBaseH m
      let x := z.2.setFields z.1 fs
      some (x.1, .single x.2)
    | some (.many q) =>
      let x := q.base.setFields m fs
      some (x.1, .many { q with base := x.2 })
    | _ => none
  | .where_ r args =>
    match hs[r]?, getCondsH hs args with
    | some (.base q), some cs =>
      let x := q.addWhere pol m cs
      some (x.1, .base x.2)
    | some (.single q), some cs =>
      let x := q.addWhere pol m cs
      some (x.1, .single x.2)
    | some (.many q), some cs =>
      let x := q.base.addWhere pol m cs
      some (x.1, .many { q with base := x.2 })
    | some (.update q), some cs =>
      let x := q.addWhere pol m cs
      some (x.1, .update x.2)
    | some (.delete q), some cs =>
      let x := q.addWhere pol m cs
      some (x.1, .delete x.2)
    | _, _ => none
  | .joinTable r t j =>
    match hs[r]? with
    | some (.base q) =>
      let x := q.joinIdent pol m t j
      some (x.1, .joinB x.2)
    | some (.single q) =>
      let x := q.joinIdent pol m t j
      some (x.1, .joinS x.2)
    | some (.many q) =>
      let x := q.base.joinIdent pol m t j
      some (x.1, .joinM { q with base := x.2 })
    | _ => none
  | .on r l x =>
    match hs[r]? with
    | some (.joinB q) => (q.on m l x).toOption.map fun y => (y.1, .base y.2)
    | some (.joinS q) => (q.on m l x).toOption.map fun y => (y.1, .single y.2)
    | some (.joinM q) => (q.base.on m l x).toOption.map fun y => (y.1, .many { q with base := y.2 })
    | _ => none
  | .single r =>
    match hs[r]? with
    | some (.base q) => some (m, .single q)
    | _ => none
  | .many r =>
    match hs[r]? with
    | some (.base q) =>
      let x := selectManyFromBaseH m q
      some (x.1, .many x.2)
    | _ => none
  | .embedded r =>
    match hs[r]? with
    | some (.single q) => some (m, .base q)
    | some (.many q) => some (m, .base q.base)
    | _ => none
  | .offset r n =>
    match hs[r]? with
    | some (.many q) => some (m, .many { q with offset := n })
    | _ => none
  | .limit r n =>
    match hs[r]? with
    | some (.many q) => some (m, .many { q with limit := n })
    | _ => none
  | .orderBy r os =>
    match hs[r]? with
    | some (.many q) =>
      let x := q.addOrder pol m os
      some (x.1, .many x.2)
    | _ => none
  | .count r fs =>
    match hs[r]? with
    | some (.base q) => (countedField fs).toOption.map fun fd => (m, .count q fd)
    | some (.many q) =>
      (countedField fs).toOption.map fun fd => (m, .count q.base fd)
    | _ => none
  | .insertInto p =>
    let x := insertIntoH m p
    some (x.1, .insert x.2)
  | .insertFrom r vs =>
    match hs[r]? with
    | some (.base q) =>
      let x := insertIntoH m (.ident q.baseTable)
      let y := x.2.addValues pol x.1 vs
      some (y.1, .insert y.2)
    | _ => none
  | .values r vs =>
    match hs[r]? with
    | some (.insert q) =>
      let x := q.addValues pol m vs
      some (x.1, .insert x.2)
    | _ => none
  | .update p =>
    let x := updateH m p
    some (x.1, .update x.2)
  | .updateFrom r vs =>
    match hs[r]? with
    | some (.base q) =>
      let x := q.update pol m (.ident q.baseTable) vs
      some (x.1, .update x.2)
    | some (.single q) =>
      let x := q.update pol m (.ident q.baseTable) vs
      some (x.1, .update x.2)
    | some (.many q) =>
      let x := q.base.update pol m (.name q.base.baseTable.name) vs
      some (x.1, .update x.2)
    | _ => none
  | .set r vs =>
    match hs[r]? with
    | some (.update q) =>
      let x := q.set pol m vs
      some (x.1, .update x.2)
    | _ => none
  | .delete p =>
    let x := deleteH m p
    some (x.1, .delete x.2)
  | .deleteFrom r =>
    match hs[r]? with
    | some (.base q) =>
      let x := q.delete pol m (.ident q.baseTable)
      some (x.1, .delete x.2)
    | some (.single q) =>
      let x := q.delete pol m (.ident q.baseTable)
      some (x.1, .delete x.2)
    | some (.many q) =>
      let x := q.base.delete pol m (.name q.base.baseTable.name)
      some (x.1, .delete x.2)
    | _ => none

/-- A history of calls on values, from given values on. -/
def runPure (ps : List PV) : List Call → Option (List PV)
  | [] => some ps
  | c :: cs =>
    match c.pure ps with
    | some p => runPure (ps ++ [p]) cs
    | none => none

/-- A history of calls in memory, from given values on. -/
def runHeap (pol : Policy) (m : Mem) (hs : List HV) : List Call → Option (Mem × List HV)
  | [] => some (m, hs)
  | c :: cs =>
    match c.heap pol m hs with
    | some x => runHeap pol x.1 (hs ++ [x.2]) cs
    | none => none

end Query
