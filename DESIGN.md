# Formal model of amarin/query in Lean 4 — design

## Shape

* `lean/Verif/Base/*`   – strings as lists of Unicode scalar values, the Go library functions used
  (`strings.Join/Fields/Split/Contains/Count/ToUpper`, `strconv.Itoa`), the result type `Res` (value / error / panic).
* `lean/Verif/Model/*`  – the code, function by function, each definition citing file:lines.
* `lean/Verif/Heap/*`   – the same code over memory: arrays, slices (array, length), `append` with a growth policy; histories
  of calls; reading functions with the arrays they allocate.
* `lean/Verif/Spec/*`   – small independent specifications: placeholder scanner, SQL lexer and grammar, three-valued
  logic, LIKE matching, statements and what running them does, what it means that memory stands for a value.
* `lean/Verif/Proof/*`  – helper lemmas.
* `lean/Verif/Props/*`  – the property theorems `Cnn_…`, with a non-vacuity `example` beside each, and the negations
  `Cnn_…_false` where the code violates the property.
* `lean/Verif/Tests/*`  – the unit tests of the repository as examples about the model: every row of every table in
  /repo/*_test.go, translated call by call by `tools/gen_tests.py` (549 examples), and the remaining tests by hand. They
  test the transcription; no claim rests on them.

Values are immutable in `Model/*` (Go passes these structs by value). The places where Go shares a backing array
between copies of a struct are modelled in `Heap/*`; C34–C36, C47 and C48 are about them.

Every theorem is about all inputs; `decide` and `rfl` are used only for witnesses of negations and for `example`s.

## Trusted base

* Lean's kernel (4.33.0). No Mathlib module is imported.
* Axioms: no theorem depends on anything but `propext`, `Classical.choice`, `Quot.sound`
  (`#print axioms` on every `Cnn_` theorem; per theorem in `AXIOMS.md`, made by `tools/gen_axioms.py`).
  No `sorry`, no `native_decide`, no `bv_decide`, no axioms of our own.
* The model is a transcription of the Go text by hand. Nothing here was compiled or run against the Go code. What the
  theorems say about the Go code is as good as this transcription; each definition cites the lines it transcribes, and
  `tools/coverage.py` lists functions of /repo no definition cites. The model gives the results the authors wrote in their
  own unit tests (`Verif/Tests`).
* The specifications in `Spec/*`: that `Spec/Sql.lean` and `Spec/Stmt.lean` describe how PostgreSQL reads these fragments
  (lexing of names, `$n`, operators; precedence NOT > AND > OR; `IN`, `IS NULL`, `LIKE`), and `Spec/Like.lean` its LIKE.
* `Spec/Exec.lean`: what a database does with a statement (joins, WHERE, ORDER BY, OFFSET, LIMIT, COUNT, INSERT, UPDATE,
  DELETE). How values compare is a parameter. A statement that names a column not in scope, or ambiguous, fails. Types,
  constraints, and concurrent statements are left out; an ORDER BY key is an alias of the SELECT list or a column.

## What is modelled, and what is not

Modelled: every function of the package, except as follows.

* Strings are valid UTF-8. Lengths are compared with 0 only, so bytes against scalar values makes no difference.
* `strings.ToUpper` is exact where the result is compared with `"AS"`.
* Go values (`any`) are described by what value.go can see of them (`Val`). Calls of user methods `Value()` and
  `DatabaseValue()` return a fixed value and have no effects. `reflect` code is modelled by its outcome per dynamic type.
* Conditions implemented by users (`Custom`) give text and values as functions of field, negation and parameter count;
  they embed `BaseCondition` as the README tells.
* `int` and `uint` do not overflow. `Render(n)` is modelled for n ≥ 0, which is what the package itself passes.
* A nil slice and an empty slice of parameters are the same value.
* Conditions in `Model/Cond.lean` are present and no pointers. nil and `*Group` as conditions are in `Model/AnyCond.lean`
  (C70, C71), which repeats combining, rendering, changing fields and building; where there is no nil it agrees with `Model/Cond.lean`. That
  what a pointer points to can be changed by its owner later is left out.
* In `Model/*` an error is its reason. The error values with their texts, and what is returned with them, are in
  `Model/Errors.lean` (C68, C69); what `%v` and `%T` print of a value in the panic of value.go:87 is a parameter.
* The SQL reader of the specification takes a run of letters, digits, `_`, `.`, `*` and characters beyond ASCII as a word. A word is a
  name if it is parts with dots between, none empty or with a digit first, without stars, the first no reserved word of PostgreSQL
  (`reserved`, Spec/Sql.lean); a star may stand only alone (without alias) or as the last part of an item selected. Any number of dotted parts is taken, and names are
  compared as written, although PostgreSQL folds their case. Keywords are read in capitals. The reader
  knows no quotes, comments or literals except the number after LIMIT: these are symbols no statement has.
* Map iteration order (values_map.go) is an arbitrary order of the entries.
* interfaces.go declares interfaces only; nothing to model.
* Memory: arrays only of the slices builders keep (conditions, joins, orderings, values, field definitions) and of
  parameters. Strings and structs are copied. `append` may choose any spare capacity (`Grow`); `goGrow` doubles, which
  is what Go's growslice gives for the element sizes here while slices are short (elements of 16, 64 and 136 bytes).
  A garbage collector is not modelled. Goroutines are interleavings of whole calls (C74); for calls that overlap, C74_moments_partial and C74_reads_partial let a call see every cell at a moment of its own (between the moment its operands were there and its own). A cell is read and written at once (the Go memory model promises nothing for racing accesses), and new arrays are numbered in the order of the calls.
* Recursion over groups in memory takes a bound on the depth, since a group can contain itself (C47). Theorems
  quantify over all bounds, or all bounds large enough.

## Where the code departs from the claims

Each is proved as a theorem `…_false` with a concrete witness; the theorem next to it says what does hold. Theorems `…_exact`
say without hypotheses on the claim's side what the code does, or exactly when the claim holds.

| # | Behaviour | Theorem |
|---|---|---|
| 1 | `EqualTo(f, []string{"a","b"})` (also slices of valuers): one placeholder, two parameters; every later placeholder skips a number | `C02_count_false`, `C03_slices_false` |
| 2 | `In(f, []int{..})` has one placeholder; `In(f, []string{})` gives `IN ()` | `C32_slice_false`, `C32_empty_false` |
| 3 | INSERT of a `[]string` value skips placeholder numbers; UPDATE takes only the first, and panics on an empty slice | `C05_insert_false`, `C04_update_false` |
| 4 | `IsNull(f).Or(x)` always panics | `C14_isNull_or_panics` |
| 5 | `SelectSingleBuilder.Fields` drops table, conditions, joins | `C21_fields_false` |
| 6 | `Or(a,b,c)` gives `(a) AND (b AND c)`; as a method `a AND d OR b OR c` | `C10_many_false`, `C10_many_or_false` |
| 7 | Flattening a negated group loses NOT: `And(c, Not(And(a,b)))` gives `c AND a AND b` | `C09_lost_not_false`, `C10_lost_not_false`, `C12_not_false` |
| 8 | `And` on a negated group puts its argument inside the NOT | `C09_inside_not_false` |
| 9 | The first `Where` keeps an Or unbracketed: `Where(Or(a,b)).Where(c)` gives `a OR b AND c` | `C12_or_false`, `C09_brackets_false` |
| 10 | Flattening uses the join word of the first member: `And(d, And(Or(a,b), c))` gives `d OR (a OR b) AND c` | `C09_join_word_false` |
| 11 | `Not` of a group around one unbracketed group: `NOT a OR b`; `Not(Not(x))` is `Not(x)` | `C08_meaning_false`, `C11_not_false`, `C11_twice` |
| 12 | An empty group gives `DELETE FROM t WHERE ` | `C15_empty_group_false`, `C46_empty_false` |
| 13 | Conditions on an aliased field render `f AS x=$1` | `C33_alias_false`, `C22_alias_false` |
| 14 | `Validate` accepts tabs, then `Field` panics | `C27_safe_false`, `C37_direction_false`, `C29_false` |
| 15 | `FieldOrError("a.b.c")` drops `c`; `"a."` gives an empty name; `".a"` is accepted; `TableOrError("t t")` is an error | `C24_forms_false`, `C26_forms_false` |
| 16 | `Render`/`RenderSQL`/`Values` of many and single selects ignore ORDER BY, OFFSET, LIMIT | `C41_many_false` |
| 17 | `Contains` does not escape `%`, `_`, `\` | `C31_contains_false` |
| 18 | Join columns without table render `.id=.tid`, which is no SQL | `C22_join_false`, `C22_untabled` |
| 19 | Builders are not immutable: And, Where, OrderBy, Values, Set, Join after branching; a second `On`; `ApplyFieldSpec`, `ApplyFieldTable`. For every INSERT, DELETE and ORDER BY list built by n single calls, n no power of two, when a second call is made on the same builder | `C34_*_false`, `C34_twins`, `C35_apply_false` |
| 20 | `g := a.And(b).And(c); x := g.Or(d,e); y := g.And(x)`: `y` contains itself, rendering never ends | `C47_cycle_false` |
| 21 | `SetValues` gives out the builder's own slice (its comment: a copy) | `C48_setValues_false` |
| 22 | `Field("a.").Value(v)` panics, as `Value` parses the name again; it also drops the alias | `C50_value_false` |
| 23 | A join condition on a field of `Table("orders AS o")` joins a table `o` | `C53_alias_false` |
| 24 | `AND.Join(Or(a,b), c)` gives `a OR b AND c` | `C56_and_false` |
| 25 | `Alias` is empty until `As` is called (its comment: same as the field name) | `C57_alias_false` |
| 26 | `Delete` and `Update` of a select drop its joins: more rows go than the select returns | `C61_join_false` |
| 27 | `Delete` and `Update` of a select drop the table alias its conditions use: the statement fails | `C61_alias_false` |
| 28 | `Delete` of a single select or after `Limit(1)` removes all matching rows | `C61_single_false` |
| 29 | `Limit(0)` returns all rows | `C65_limit_zero_false` |
| 30 | `Count("a AS x")` counts a column `x`: the statement fails | `C60_alias_false` |
| 31 | `ASC`/`DESC` of an invalid name and `NewFields` of another type panic with a string, which is no error | `C69_false` |
| 32 | `And(&g, c)` with a pointer to the group `g := a OR b` gives `a OR b AND c`; `And(g, c)` gives `(a OR b) AND c` | `C71_first_false` |
| 33 | Assigning to `list` after `In("id", list)` changes the parameters of the condition, as the slice is kept and read when the query is built | `C73_value_slice_false` |
| 34 | Two goroutines that call `Where` on the same select with three conditions: the condition of one replaces that of the other (the array is shared) | `C74_race_false` |
| 35 | `q.OrderBy(o).Single()` and `.Many()` drop ordering, offset and limit; `q.Single().OrderBy(o)` drops the LIMIT 1 (methods of the embedded builder) | `C76_single_false`, `C76_many_false`, `C76_one_false` |
| 36 | `NewWhere().GroupOR(a, b)` says `a AND b`; `GroupAND(a, Or(b, c))` says `a OR b OR c` | `C77_where_false` |
| 37 | Names are written into the text unchecked but for quotes, spaces and dots: `EqualTo("id=$1)OR(id", 3)` changes the meaning of a DELETE; tables are not checked at all | `C80_false`, `C80_accepted_false` |
| 38 | As 35, in programs: `SelectManyFrom(t).OrderBy(Desc("id")).Single()` reads another row than asked for | `C81_false` |
| 39 | `Fields(Field("* AS a"))` is accepted and gives `SELECT * AS a FROM t`, which is no SQL: a bare star takes no alias | `C22_star_false` |

## Plan per property

| Id | What is modelled | How it is proved |
|---|---|---|
| C01 | `Cond.render`, `Cond.values`, scanner `dollars : Str → List Nat` | structural induction over condition trees: `dollars (render k) = [k+1 .. k+n]`; over any names `C01_any_names` (`Spec/Pieces.lean`: a text as a list of fixed words and placeholders, the same for every `k`) |
| C02 | same, all Go values | negation with witness (`EqualTo(f, []string{"a","b"})`) + exact characterisation per constructor (`_partial`) |
| C03 | base/single/many/count builders | from C01 + scanner append lemmas; negation for slices in comparisons (`C03_slices_false`); `C03_exact` for any values; `C03_any_names_partial` for any names |
| C04 | `UpdateBuilder` | same; `_partial` under one-parameter set values, witness for `[]string` values |
| C05 | `InsertBuilder` | induction over the set list; witness for slice values |
| C06 | `RenderSQL` everywhere, `toQ : Str → Str` eraser | induction over trees; `C06_any_names…` over names with dollar signs and question marks: one list of pieces gives both dialects |
| C07 | two conditions equal up to values | induction, relational (`sameShape`) |
| C08 | lexer + grammar reader of boolean expressions | lexer composition lemmas, grammar completeness, induction |
| C09–C12 | `addConditions`/`addSingleCondition`/`addGroup`, three-valued evaluation of the text read back | one-step soundness for coherent shapes; witnesses where the code departs; exact meaning for every shape by lists of factors (`Spec/Adding.lean`) |
| C13 | same code | case analysis over the branches, no shape hypothesis; when `Values` of a part panics, induction over the list |
| C14 | nil interface arguments as `Option Cond` | total functions; `IsNull(f).Or(..)` panics for every argument |
| C15, C16 | update/delete/insert builders | case analysis + history induction; witness for empty groups |
| C17, C18 | derived builders | equational |
| C19, C20 | many-select builder as a state machine over setter calls, limiter | induction over the call list |
| C21 | single-select builder | equational; `Fields` loses the query: negation proved for every builder |
| C22 | statement reader on tokens | decode(encode) by lexer lemmas |
| C23 | join builders | induction over the join list; any sequence of joins on the three select builders and from a table |
| C24–C27 | parsers of names | exact characterisation on all strings |
| C28 | `UniqFieldNames` | loop invariant |
| C29 | map as association list with distinct keys, any order | induction + permutation |
| C30 | `ApplyFieldSpec/ApplyFieldTable` | induction over trees |
| C31 | SQL LIKE matcher | `likeMatch ('%' v '%') s ↔ v infix of s` for wildcard-free v; witnesses otherwise |
| C32 | IN | corollary of C08 reader + evaluation |
| C33 | condition text of aliased fields | negation for every aliased field + partial |
| C34–C36 | slice heap: arrays, (ptr,len,cap), append with arbitrary growth | witness histories; for lists with room (`Spec/Room.lean`) two calls give one value, and with Go's doubling every list built by n single calls has room unless n is a power of two; refinement to value semantics for linear histories, for histories that extend no list with spare capacity twice (`Spec/Lists.lean`), and for histories whose appends hit only full or last slices; C36: reading as a function of the old arrays alone; `C34_apart`, `C34_only`: for any history, a frame relation (`Spar`) of the cells each call may write (`Spec/Spill.lean`), and reading depends only on the cells a value is read through; `C34_exact`: for any history and any call, an earlier value keeps all it is read from just if the call writes no different element into one of these cells (`Spec/Spoil.lean`: what each call appends, gives to `On`, or changes by Apply); `C35_untainted`: in any history, a value neither spoilt nor made from spoilt ones (`Spec/Taint.lean`) stands for its plain value |
| C37–C43 | small functions | case analysis / induction |
| C44–C46 | statement reader on the text of INSERT, UPDATE, DELETE | lexer and grammar lemmas, induction over columns and trees |
| C47 | rendering over the slice heap, with a bound on the depth | a history whose condition contains itself exceeds every bound; the histories of C34 and C35 stay finite; `C47_exact`: for any history, reading and the Apply calls return exactly when no group is read through its own slice (`Spec/Cycle.lean`): a condition without such a group nests at most as deep as there are cells |
| C72 | the slice heap, any histories | relation `LikeV` between values in memory and plain values that ignores elements of lists, kept by every call; guards and skeleton of the texts follow; which histories run: step by step with C47's exact condition for the Apply calls |
| C73 | programs with lists of their own in the slice heap (`Heap/Passed.lean`), slices given as values by header (`Heap/Values.lean`) | invariant: no value's slice lies in the array of a list, kept by every call; reading depends only on arrays outside the lists; simulation by the program with the elements written out; for programs of any shape, by induction over the steps, what no call spoilt stands for the plain value (`Spec/PassedTaint.lean`); witness for `In(field, list)` |
| C74 | goroutines as interleavings of their calls on the slice heap (`Spec/Threads.lean`); a call is one step, or sees every cell at a moment of its own (`Glimpse`) | simulation: names of lists and numbers of values of each goroutine mapped into those of the interleaved history, which then extends no list twice; every call writes new cells only, from the invariant of append; witness for two goroutines on one select; without any condition, `Taint` of the interleaved history (as C35) |
| C75 | histories that use every value once (`Spec/Once.lean`), Apply calls included | invariant: over the values not used up, every array of conditions occurs once, inside one value; a call moves the arrays of its operands into its result and adds new ones; so the writes of ApplyFieldSpec reach nobody else; for goroutines (`Spec/OnceThreads.lean`) invariant: the values used so far are those of the goroutines, renumbered one to one; for calls that overlap, the arrays of a value not used up only get longer, and `ApplyFieldSpec`/`ApplyFieldTable` replace exactly the cells the condition is read from (`Proof/ApplySeen.lean`); witnesses for a group used twice and for one read while it is used up |
| C48 | sessions: reads and arbitrary writes into the results | invariant: results are new arrays, old arrays are kept |
| C49–C51, C53–C55, C57 | constructors, shorthands, accessors | case analysis, induction over call lists |
| C76 | the methods single and many selects have from the embedded builder (`Model/Promote.lean`) | induction over the calls; rows from C59 |
| C77 | expressions of any nesting of And, Or, Not, NewGroup, Join, brackets (`Spec/Nested.lean`) | mutual induction: every call on conditions matches an operation on lists of factors (`Proof/Nested.lean`), exactly; when the operation is conjunction, disjunction, negation is computed (`clear`) and proved sound (`Proof/NestedClear.lean`) |
| C78 | programs of `Spec/Program.lean` with any nested conditions in their Where calls (`Spec/NestedProgram.lean`) | the steps of C67 are stated for any meaning of the WHERE clause (`Ran p S q`); C77 gives the meaning; induction over the calls shows that the other calls do not look at it |
| C79 | programs of C78, C67 and C81 as histories of calls on the slice heap, from any memory (`Spec/Memory.lean`) | the history of a program extends no value twice (induction over expressions and calls), so the simulation of C35 applies, started from any memory with numbers moved up; invariant: lists of new values lie in new arrays, so old arrays are kept |
| C80 | statement reader; plain names (`Spec/NamesRead.lean`) | invariant of the lexer: words consist of word characters; every name a reader returns is a word that is no keyword, clause by clause; so what reads back is plain, and C22, C44–C46 give the converse |
| C81 | programs that change the kind of the select on the way and end by reading, counting or writing through it (`Spec/KindProgram.lean`) | induction over the calls from the last: the calls that count, run on a select of many rows, refine the program on all kinds; the WHERE clause of a select given to a new builder is the clause itself; invariant for `C81_lost`: after `Fields` on a select of one row the table stays empty, so FROM is followed by a clause word or by nothing |
| C82 | `FieldList`, `FieldDefinitions`, `RenderFrom`, `TableName`, `SetValues`, `Values` of all builders against `BuildQueryAndParams` | shape of the built text by cases on the kind; induction over the calls of a program for `C82_fields` |
| C83 | text and parameters of two builders of any kinds | the reader (C22, C44–C46) gives back one statement for one text; what a statement tells is compared with what the builder holds (`Builder.told`, `Spec/SameText.lean`) |
| C84 | histories of calls, with values replaced by a function on values | `given` (`Spec/Later.lean`) replaces values and nothing else; calls commute with it, on plain values and in memory; with Apply calls when every value is used once, and for whatever was not spoilt. False for `FieldName.Value` of a `ValueProvider` (`C84_false`) |
| C85 | chains of calls in another order (`Spec/Moved.lean`) | induction over the moves: what each kind of call asks for stays, conditions are permuted; conjunction does not depend on order; C78 and C67 give rows and effects. False when a Where call begins with an Or (`C85_false`) |
| C86 | statements of one select, or an insert and a select, run one after another (`Spec/Written.lean`) | a condition depends only on the cells it names (`says_local`), and in a row of the product without RIGHT or FULL joins these are the cells of the table's own row; so what the delete keeps is what the select does not find. Effects from C67, C81 |
| C87 | programs with conditions written in another way (`Spec/Laws.lean`) | induction over the exchange: each law holds in three-valued logic (`combine` is associative, commutative, idempotent, distributive; De Morgan) and names the same columns; C78, C67 and C81 give rows and effects. False for `Not(Not(…))` (`C87_false`) |
| C88 | programs with conditions spelled out in groups with brackets (`Spec/Spelled.lean`) | induction over the condition: each is one factor of the text and does what its names say (`spelled_clear`); invariant over the Where calls: the clause is joined by AND throughout (`MadeAnd`); then C81. `Spec/SpelledAny.lean` spells out programs of every kind; each spelled program is clear, so C79's theorems on shared memory and goroutines apply |
| C89 | conditions with `ApplyFieldTable`/`ApplyFieldSpec` at any place, programs with them (`Spec/Retable.lean`) | replacing the fields commutes with every call of the condition API (`Proof/Retable.lean`); induction over the expression; C77 and C81 give text and rows; in memory (`Spec/RetableMemory.lean`) the calls of a program use each value once, and C75 applies. False for a specification with an alias (`C89_alias_false`) |
| C90 | boolean expressions over tests and the calls that say them (`Spec/Wish.lean`); statements are read by `readStmt` | induction over the expression: the factors of the text of each call assemble to the expression at every offset (`SaysExp`, `Proof/Wish.lean`), reading is unique (`reads_unique`); that every expression of SQL is reached: induction, splitting the numbers between the operands; the converse: induction over the condition, each factor of its text can be said (`flat_sayable`); statements: `many_read_at`, `single_read_at`, `count_read_at`, `update_reads`, `delete_reads` |
| C91 | tests and combining calls are counted (`Spec/Long.lean`) | mutual induction over the condition for the length of the text (`text_long`); case analysis of `addGroup`, `addSingleCondition`, `addConditions` for the groups a call makes, induction over the calls (`call_groups`, `clause_groups`) |
| C52 | `Operation` | invariant over histories |
| C56 | `JoinType.Join` | as C09, C10 |
| C58 | the parts of a condition tree | case analysis over the branches, induction |
| C59–C65 | a database with tables of any size, statements run on it (`Spec/Exec.lean`) | reading back (C22, C44–C46), then induction over rows |
| C66 | which texts are SQL (`Spec/Exact.lean`) | induction over conditions: the reader accepts sound ones and gets stuck in others |
| C67 | programs: names in text, values, calls (`Spec/Program.lean`) | induction over the calls; parsing of names (C24, C26), conversion (C38), chains of Or (C10) and Where (C12), reading back (C22, C44–C46) |
| C70, C71 | conditions with nil and `*Group` as further constructors | invariant `KeptNil` through all combining calls, induction over trees and expressions; simulation by `core` |
| C68, C69 | error values as trees of wrapped errors (`Base/Err.lean`) | case analysis; induction over maps and field lists |
| C01–C05, C17, C31, C41 | exact forms (`Props/Exact.lean`) | without the hypotheses of the claims: what is built for any value |

Properties that turn out false of the code are kept: the negation is proved with a witness and what does hold is proved
under the suffix `_partial`.
