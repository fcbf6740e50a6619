#!/usr/bin/env python3
"""Writes /verif/properties.jsonl (the property list is kept here so that JSON quoting stays right)."""
import json, os
P = []
def p(title, statement, quantifier, why, anchors):
    P.append(dict(id="C%02d" % (len(P) + 1), title=title, statement=statement, quantifier=quantifier,
                  why_tests_cant=why, anchors=anchors))

p("Numbered placeholders of a condition are contiguous and match its values",
  "For every condition built from the library's comparisons, LIKE/ILIKE, IN, IS NULL and groups, whose comparisons other than IN carry a value that supplies exactly one parameter, the text of Render(k) contains exactly the placeholders $k+1, $k+2, ..., $k+n from left to right, each once, where n = len(Values()).",
  "every condition tree of any depth and width, every parameter offset k, every identifier without a dollar sign (for any identifier at all: one list of fixed words and placeholders gives every Render(k)), every value",
  "numbering is threaded through an unbounded recursive tree; tests fix a few trees and offsets",
  ["group.go: Group.Render, Group.Values", "lib_*.go: Render, Values", "interfaces.go: CountingClauseRenderer, ValuesProvider"])
p("Every condition renders as many placeholders as it supplies values, for every Go value",
  "As CountingClauseRenderer and ValuesProvider demand, for any condition constructor and any Go value passed to it the number of placeholders in Render/RenderSQL equals len(Values()).",
  "every constructor, every Go value (scalars, driver.Valuer, ValueProvider, []string, slices of valuers, empty slices)",
  "the value is an arbitrary Go value; tests use ints and strings",
  ["value.go: FieldValue.Values", "lib_equal.go", "lib_gt.go", "lib_gte.go", "lib_lt.go", "lib_lte.go", "lib_in.go", "interfaces.go: ValuesProvider"])
p("SELECT statements number their parameters 1..n",
  "For every select, single-select, many-select and count builder, BuildQueryAndParams returns SQL whose placeholders are exactly $1..$n in order with n = len(params); OFFSET and LIMIT take the last numbers.",
  "every builder state, every number of conditions, fields, joins and orderings, every offset and limit",
  "the numbering depends on the whole builder state",
  ["select_base.go: BaseSelectBuilder.BuildQueryAndParams", "select_many.go: SelectManyBuilder.BuildQueryAndParams", "select_single.go: BuildQueryAndParams", "count.go: CountBuilder.BuildQueryAndParams"])
p("UPDATE numbers SET first and WHERE after, params in the same order",
  "A successful UpdateBuilder.BuildQueryAndParams returns SQL whose placeholders are exactly $1..$n in order; the i-th assignment f_i=$i is bound to the value set for f_i, and the WHERE clause takes the following numbers, bound to the condition values in order.",
  "every list of set values and every list of Where calls",
  "the offset of the WHERE numbering depends on the number of set values",
  ["update.go: fieldsAndValues, BuildQueryAndParams"])
p("INSERT pairs the i-th column with placeholder $i and the i-th parameter",
  "A successful InsertBuilder.BuildQueryAndParams returns one column and one placeholder per value given, in call order; the i-th placeholder is $i and the i-th parameter is the database value of the i-th field value.",
  "every sequence of Values calls with any number of values",
  "the pairing must hold at every position of an unbounded list",
  ["insert.go: Values, BuildQueryAndParams"])
p("Question-mark SQL is the numbered SQL with the placeholders replaced",
  "For every condition, where clause, limiter and select builder, RenderSQL() is exactly the text of Render(k) with every $<number> replaced by ?, so both dialects ask the same query and take the same Values().",
  "every condition tree, every builder, every k, identifiers without dollar sign (for any identifier at all: one list of fixed words and placeholders gives both dialects)",
  "two separately written recursive renderers have to agree on every tree",
  ["group.go: Render, RenderSQL", "lib_*.go: Render, RenderSQL", "select_base.go: Render, RenderSQL", "limiter.go"])
p("Values never reach the SQL text",
  "The SQL text depends only on identifiers, shape and number of values: replacing the values in a condition or builder by any other values that supply the same number of parameters leaves the generated SQL unchanged, so user data cannot be injected through values.",
  "every condition tree and builder, every replacement of values",
  "non-interference quantifies over pairs of all inputs",
  ["lib_*.go: Render, RenderSQL", "group.go: Render", "insert.go", "update.go", "delete.go", "select_*.go"])
p("The WHERE text together with its params reads back as the intended predicate",
  "Read by the SQL grammar (NOT binds tighter than AND, AND tighter than OR), the text of Render(k) of any condition whose identifiers are plain words is a well-formed boolean expression; its leaves, with placeholder $k+i replaced by Values()[i-1], are exactly the comparisons the caller built: same field, same operator, same value, same order, and with the same negation.",
  "every condition tree with non-empty groups, plain identifiers and no aliases, every offset",
  "requires a parser to be right on an infinite set of strings",
  ["group.go: Render", "lib_*.go: Render, Values"])
p("And means conjunction",
  "a.And(b...) and And(a, b...) build a condition that, as SQL, holds on a row exactly when a and all of b hold (SQL three-valued logic).",
  "every condition a, every list b, every row and database",
  "semantic equivalence over all trees and all rows",
  ["operations.go: And", "group.go: addConditions, addSingleCondition, addGroup, And", "lib_*.go: And"])
p("Or means disjunction with the conjunction of the additional conditions",
  "a.Or(b...) and Or(a, b...) build a condition that, as SQL, holds exactly when a holds or all of b hold, as documented.",
  "every condition a, every list b, every row and database",
  "semantic equivalence over all trees and all rows",
  ["operations.go: Or", "group.go: addConditions, addSingleCondition, addGroup, Or", "lib_*.go: Or"])
p("Not means negation",
  "Not(c), for a condition c not already negated, builds a condition that holds as SQL exactly when c does not (unknown stays unknown).",
  "every condition c, every row and database",
  "semantic equivalence over all trees and all rows",
  ["operations.go: Not", "group.go: Negate, Render", "lib_*.go: Render"])
p("Repeated Where calls narrow the result",
  "For every builder q and conditions a, b: the WHERE clause of q.Where(a).Where(b) holds on a row exactly when a holds and b holds; a chain of Where calls is the conjunction of all its conditions.",
  "every chain of Where calls of any length, every row",
  "unbounded chains, all shapes of conditions",
  ["where.go: GroupAND", "group.go: addConditions", "select_base.go: Where", "update.go: Where", "delete.go: Where"])
p("Combining conditions neither loses, duplicates nor reorders parameters",
  "For And, Or, GroupAND, GroupOR, NewGroup and Where, Values() of the result is Values() of the receiver followed by Values() of the added conditions in order; if one of these panics, so does Values() of the result, as the first that does.",
  "every receiver, every argument list, every shape",
  "twelve branches of bracket and flattening logic have to agree",
  ["group.go: addConditions, addSingleCondition, addGroup, Values", "operations.go"])
p("Combining non-nil conditions never panics",
  "And, Or and Not, as functions or as methods of any condition, return for all non-nil conditions.",
  "every condition kind as receiver, every argument list",
  "all kinds times all argument lists",
  ["lib_isnull.go: nullValue.Or", "logical.go: JoinType.Join, SetToAll", "group.go: NewGroup", "operations.go"])
p("UPDATE and DELETE never run unfiltered",
  "BuildQueryAndParams of an update or delete builder to which no condition was added returns an error and no SQL; when it returns SQL, that SQL has a WHERE followed by a condition.",
  "every history of Where/Set calls, including Where() with no conditions and derived builders",
  "all histories",
  ["update.go: BuildQueryAndParams", "delete.go: BuildQueryAndParams", "select_base.go: Update, Delete", "select_many.go: Update, Delete"])
p("Builders report an error exactly in the documented cases",
  "InsertBuilder errs iff it has no values or no table name; UpdateBuilder errs iff it has no condition, no set value or no table name; DeleteBuilder errs iff it has no condition or no table name; on error the SQL is empty and there are no params; select and count builders never err.",
  "every builder state",
  "all states",
  ["insert.go: BuildQueryAndParams", "update.go: BuildQueryAndParams", "delete.go: BuildQueryAndParams"])
p("Update and Delete derived from a select keep its table and its filter",
  "q.Update(values...) and q.Delete() of a select builder q touch q's base table (name, no alias, no joins) and their WHERE clause is q's WHERE clause with placeholders shifted by the number of set values, bound to the same values.",
  "every select builder state and set list",
  "all builder states",
  ["select_base.go: Update, Delete", "select_many.go: Update, Delete", "select_single.go: Update"])
p("Count counts exactly the selected rows",
  "q.Count() has the same FROM, joins, WHERE clause and params as q's SELECT and does not depend on fields, ordering, offset or limit.",
  "every base and many-select builder",
  "all builder states",
  ["count.go", "select_base.go: Count", "select_many.go: Count"])
p("Ordering, offset and limit: last call wins, calls commute, order keys accumulate",
  "After any sequence of Offset, Limit, OrderBy, Where and Fields calls the ORDER BY list is all OrderBy arguments in call order, OFFSET/LIMIT are those of the last calls and are present iff positive; calls of different kinds commute.",
  "every sequence of builder calls",
  "unbounded call sequences",
  ["select_many.go: Offset, Limit, OrderBy, Where, Fields, BuildQueryAndParams"])
p("Limiter renders exactly the limits it holds",
  "For every limiter, Render(k), RenderSQL and Values agree: OFFSET appears iff offset>0, LIMIT iff limit>0, numbered from k+1 in the order of Values(), and SelectManyBuilder prints the same tail for the same offset and limit. After any calls of Offset and Limit, it holds the last of each.",
  "every offset, limit and k",
  "all numbers",
  ["limiter.go", "select_many.go: BuildQueryAndParams"])
p("Single-row select adds LIMIT 1 and keeps the query",
  "SelectSingleBuilder.BuildQueryAndParams is the base select followed by LIMIT 1 with the same params, and Fields, Where and Join on it change only the part they name.",
  "every single-select builder and field list",
  "all builder states",
  ["select_single.go: BuildQueryAndParams, Fields, Where, joinIdent"])
p("A generated SELECT reads back to the builder's content",
  "Read by a SQL grammar, the text generated for any select builder over plain identifiers yields the same field list (with aliases), base table and alias, joins (type, table, alias, ON pair, order), WHERE expression, ORDER BY list with directions, OFFSET and LIMIT as the builder holds; nothing is lost or merged.",
  "every select builder over plain identifiers",
  "requires decode(encode(x)) = x on an infinite domain",
  ["select_base.go", "select_many.go", "select_single.go", "fields.go: FieldList", "join_tables.go: RenderFrom", "ordering.go: Render"])
p("Joins accumulate in order and On completes only the join just opened",
  "After any sequence of Join(...).On(...) calls the FROM clause lists the base table and then each join in call order with its own type, table and ON fields; the ON clause names fields by table even when the field has an alias.",
  "every sequence of joins on the three select builders and the table shorthands",
  "unbounded sequences",
  ["join_unfinished.go", "join_tables.go", "join_condition.go", "select_base.go: joinIdent", "select_many.go: joinIdent", "select_single.go: joinIdent"])
p("Field specifications are accepted exactly in the four documented forms",
  "FieldOrError accepts exactly name, table.name, name AS alias, table.name AS alias (AS in any case, any white space) and returns the named parts; anything else is an error; Field panics exactly where FieldOrError errs.",
  "every string",
  "all strings, including all white space and dots",
  ["field_definition.go: FieldOrError, mustField, Field"])
p("Field definitions survive printing and parsing",
  "For plain names, Field(f.RenderSpec()) gives a definition that renders the same and has the same field, table and effective alias; As and Of change only the alias and the table.",
  "every field definition over plain names",
  "round trip over all names",
  ["field_definition.go: RenderSpec, RenderField, As, Of"])
p("Table identifiers: accepted forms, round trip, alias never equals the name",
  "TableOrError accepts exactly name, name alias, name AS alias; Table(t.RenderFrom()) gives t back for plain names; for every identifier obtained through the API the alias is empty or differs from the name (an alias equal to the name is dropped).",
  "every string, every sequence of As calls",
  "all strings and call sequences",
  ["table_ident.go: TableOrError, Table, As, RenderFrom"])
p("A validated field name is safe to use",
  "FieldName.Validate accepts exactly non-empty names without quotes, double quotes, spaces, leading, trailing or repeated dots; a name it accepts can be passed to ASC, DESC, OrderBy, Field and the condition constructors without panic.",
  "every string",
  "all strings, including other white space",
  ["field_name.go: Validate", "ordering.go: ASC, DESC, OrderBy", "field_definition.go: Field"])
p("UniqFieldNames keeps the first occurrence of every name, in order",
  "The result has no duplicates, contains exactly the input's names, is a subsequence of the input keeping first occurrences, and is the input itself when that has no duplicates.",
  "every slice of names",
  "all slices",
  ["utils.go: UniqFieldNames"])
p("ValuesMap.FieldValues yields one field value per entry or an error, whatever the map order",
  "For every iteration order of the map: if all keys are valid names the result has exactly one field value per entry pairing the key's field with its value; if some key is invalid the result is an error and no values; two iteration orders give permutations of one another.",
  "every map and every iteration order",
  "Go randomises map iteration",
  ["values_map.go: FieldValues"])
p("Re-tabling and re-specifying a condition changes only the fields meant",
  "ApplyFieldTable(t) sets the table of every field in the condition and ApplyFieldSpec(s) replaces exactly the definitions of fields named like s; structure, operators, negations, joins and Values() stay; both are idempotent.",
  "every condition tree, table and spec",
  "all trees",
  ["group.go: ApplyFieldSpec, ApplyFieldTable", "lib_*.go: ApplyFieldSpec, ApplyFieldTable", "value.go"])
p("Contains means substring",
  "The pattern Contains/IContains binds matches, under SQL LIKE, exactly the strings that contain the given value (up to case for IContains).",
  "every value and every stored string",
  "all pairs of strings",
  ["lib_like.go: Values", "lib_ilike.go: Values"])
p("In lists one placeholder per element and means membership",
  "In(f, list) renders one placeholder per list element, binds the elements in order, and holds exactly when the field equals one of them; Not(In(..)) is its negation.",
  "every list",
  "all lists",
  ["lib_in.go: Render, RenderSQL", "value.go: Values"])
p("Conditions name columns, never aliases",
  "The WHERE text produced for a field names the column (with its table if set) and contains no AS clause, also when the field definition has an alias.",
  "every field definition",
  "all definitions",
  ["lib_*.go: Render (RenderSpec)", "field_definition.go: RenderSpec, RenderField"])
p("Builders are immutable",
  "As the README states, all query builders are immutable: no call on a builder or condition ever changes the SQL or the params of any builder or condition obtained earlier.",
  "every history of API calls over shared builders, with Go's slice aliasing",
  "needs every history, and depends on slice capacities",
  ["README.md", "group.go: append in addConditions/addSingleCondition/addGroup, ApplyFieldSpec, ApplyFieldTable", "select_many.go: OrderBy", "insert.go: Values", "update.go: Set", "join_unfinished.go: On", "select_base.go: joinIdent"])
p("A builder derived linearly behaves as a value",
  "In every history where each builder is extended at most once, every builder obtained, old or new, always renders as if builders were plain immutable values, whatever capacities append chooses.",
  "every history without branching, every append growth policy",
  "needs every history and every allocator behaviour",
  ["select_many.go: OrderBy", "insert.go: Values", "update.go: Set", "group.go: append", "select_base.go: joinIdent"])
p("Building a query changes nothing",
  "Render, RenderSQL, Values, BuildQueryAndParams, FieldDefinitions and Conditions only read: they may be called any number of times in any order with the same result.",
  "every history",
  "every history",
  ["group.go: Render", "where.go: Conditions", "fields.go: FieldDefinitions", "select_*.go: BuildQueryAndParams"])
p("OrderBy gives exactly the requested direction",
  "ASC, DESC and OrderBy produce ORDER BY keys with the requested direction (ascending by default), and panic exactly on an invalid name or an unknown direction.",
  "every name and direction",
  "all strings",
  ["ordering.go: ASC, DESC, OrderBy, Render"])
p("Field values are converted by the documented precedence",
  "A driver.Valuer is replaced by its Value(), else a ValueProvider by its DatabaseValue(), slices of those and []string element-wise in order, everything else passes unchanged as one parameter.",
  "every Go value",
  "all dynamic types",
  ["value.go: FieldValue.Values", "field_name.go: FieldName.Value", "field_definition.go: Value"])
p("Negation and join flags: setting is last-wins and independent",
  "Not is idempotent, Negate(false) undoes it, Join(j) sets only the join, and neither changes Values(), field, or the other flag.",
  "every condition",
  "all conditions",
  ["base.go", "lib_*.go: Join, Negate", "group.go: Join, Negate", "operations.go: Not"])
p("Field lists: last Fields call wins, '*' exactly when empty",
  "Fields replaces the whole list, keeps the rest of the query, FieldList is '*' iff no field is set and otherwise the specs separated by ', ' in order; NewFields panics exactly on a bad argument.",
  "every field list",
  "all lists",
  ["fields.go", "select_base.go: Fields", "select_many.go: Fields"])
p("All renderers of a select builder agree with BuildQueryAndParams",
  "For base, many and single select builders Render(0) and Values() return the same SQL and params as BuildQueryAndParams.",
  "every select builder",
  "all states; Render and Values are promoted from the embedded base builder",
  ["select_base.go: Render, RenderSQL, Values, BuildQueryAndParams", "select_many.go", "select_single.go"])
p("Enumerations print their SQL keyword and never collide",
  "Operation and TableJoinType values print the SQL keyword of the documented constants; different values print differently; unknown values print as unknown(<n>).",
  "every integer",
  "all integers",
  ["op_type.go", "join_type.go", "keywords.go"])
p("String, TableName and TableIdent sources are interchangeable",
  "SelectFrom, SelectManyFrom, SelectSingleFrom, InsertInto, Update and Delete give the same builder for a plain table name given as string, TableName or TableIdent.",
  "every plain name",
  "all names",
  ["select_base.go: SelectFrom", "insert.go: InsertInto", "update.go: Update", "delete.go: Delete", "table_name.go", "table_ident.go"])
p("A generated INSERT reads back to the builder's content",
  "Read by a SQL grammar, the text of every INSERT over plain names yields the builder's table, its columns in call order, and one placeholder per column, bound in the parameter list to the value given for that column.",
  "every insert builder over plain names, every list of values",
  "requires decode(encode(x)) = x on an infinite domain",
  ["insert.go: BuildQueryAndParams"])
p("A generated UPDATE reads back to the builder's content",
  "Read by a SQL grammar, the text of every UPDATE over plain names yields the builder's table, the columns it sets in call order each with a placeholder bound to its value, and a WHERE expression that is the builder's condition.",
  "every update builder over plain names, every list of set values, every condition tree",
  "requires decode(encode(x)) = x on an infinite domain",
  ["update.go: BuildQueryAndParams, buildSQLFieldsAndValues"])
p("A generated DELETE reads back to the builder's content",
  "Read by a SQL grammar, the text of every DELETE over plain names yields the builder's table and a WHERE expression that is the builder's condition with its parameters bound.",
  "every delete builder over plain names, every condition tree",
  "requires decode(encode(x)) = x on an infinite domain",
  ["delete.go: BuildQueryAndParams"])

p("Rendering and collecting values terminate",
  "Render, RenderSQL, Values and BuildQueryAndParams return for every builder and condition made by calls of the API: no condition ever contains itself.",
  "every history of API calls over shared builders, with Go's slice aliasing",
  "termination over all histories; depends on slice capacities",
  ["group.go: Render, RenderSQL, Values, addConditions, addGroup, addSingleCondition", "operations.go: And, Or"])

p("Lists handed out are the program's own",
  "Writing into a list a builder or condition gave out (parameters, Values, Conditions, FieldDefinitions, SetValues) changes no builder and no condition, whatever is read and written and in whatever order.",
  "every history, every later sequence of reads and writes into the results",
  "quantifies over all histories and all programs that use the results",
  ["where.go: Conditions", "fields.go: FieldDefinitions", "insert.go: SetValues", "update.go: SetValues", "value.go: Values"])
p("Constructors make the condition their name says",
  "EqualTo, GreaterThan, GreaterThanOrEqual, LessThan, LessThanOrEqual, Contains, IContains, In and IsNull, as functions and as methods of a field name, make a fresh condition (not negated, joined by AND) that renders the field, its operator and the placeholders of the given value; they panic exactly for names FieldOrError rejects.",
  "every name and value",
  "all names, all Go values",
  ["lib_equal.go", "lib_gt.go", "lib_gte.go", "lib_lt.go", "lib_lte.go", "lib_like.go", "lib_ilike.go", "lib_in.go", "lib_isnull.go", "field_name.go"])
p("Fields of a table are qualified by the name FROM introduces",
  "TableName.Field, TableIdent.Field and Of give the named field qualified by the table's alias, or its name when it has none, which is the name the FROM text of that table introduces; FieldDefinition.Value keeps name and table of the field.",
  "every table identifier made by the API, every field name",
  "all names",
  ["table_name.go: Field", "table_ident.go: Field", "field_definition.go: Of, Value"])
p("Shorthands do what the long form does",
  "Select, SelectOne, SelectMany, Count, InsertInto, Update, Delete and Join of a table, and Offset, Limit and OrderBy of a base select, make the query with exactly the given conditions, values or settings and nothing else.",
  "every table, conditions, values and settings",
  "all argument lists",
  ["table_name.go", "table_ident.go", "select_base.go: Offset, Limit, OrderBy"])
p("Operation names the statement",
  "Operation() of every builder made by API calls prints as the first word of the SQL it makes.",
  "every history of API calls",
  "induction over histories",
  ["build_base.go: Operation", "op_type.go: String, New"])
p("Join methods join the right field's table",
  "InnerJoin, LeftJoin, RightJoin and FullJoin of a join condition, and By of a join type, join the table of the right field on equality of the two fields, with the words of the join; they panic exactly when the right field has no table.",
  "every pair of fields",
  "all names",
  ["join_condition.go", "join_type.go: By", "join_tables.go: RenderFrom"])
p("Applying a field to ordering keys touches only its own keys",
  "ApplyFieldSpec on ordering keys replaces exactly the keys on that field, keeps every direction, is idempotent and changes nothing else of the query; ApplyFieldTable sets the table of the key and nothing else.",
  "every key list, field and table",
  "all lists",
  ["ordering.go: ApplyFieldSpec, ApplyFieldTable", "select_many.go: applySpecToOrdering, applyFieldTableToOrdering"])
p("String() of a query shows the query and no values",
  "String() of a select shows its FROM with joins, its field list and its condition with ?; it is the same for queries that differ in values only.",
  "every base select, every condition tree",
  "all trees; relational",
  ["select_base.go: String", "where.go: String", "fields.go: String"])
p("Joining many conditions by a word",
  "JoinType.Join and NewGroup over conditions keep all values in order and mean their conjunction for AND and their disjunction for OR; Join panics exactly on no condition and on nil.",
  "every list of conditions, every row",
  "all trees and rows",
  ["logical.go: Join", "group.go: NewGroup"])
p("Accessors give back what was set",
  "Name, alias and table of a field definition are those of the last calls that set them (the alias being the name until As is called, as its comment says); TableName of a table identifier is the first word of its specification and Alias that of the last As, or else the one specified, empty if it would be the name; TableName, RenderFrom and SetValues of write builders are the table they were made for and all values in call order.",
  "every chain of calls",
  "induction over call lists",
  ["field_definition.go", "table_ident.go", "insert.go", "update.go", "delete.go"])
p("Combining conditions keeps every part",
  "And, Or, NewGroup and Where, as functions and as methods, keep every comparison and user-defined condition exactly once, in order, each with its own negation.",
  "every condition tree, every list of conditions, every chain of Where calls",
  "all trees; no condition on shapes",
  ["group.go: addConditions, addSingleCondition, addGroup", "operations.go", "where.go"])
p("A SELECT returns exactly the matching rows",
  "Run in a database, the text of a SELECT builder with its parameters returns one row for each row of the joined tables on which all its conditions hold, with the columns and names asked for; single builders the first of them, many builders the page of them asked for.",
  "every builder over plain identifiers, every database, every way of comparing values",
  "all builders, all tables of any size",
  ["select_base.go: BuildQueryAndParams", "select_single.go: BuildQueryAndParams", "select_many.go: BuildQueryAndParams"])
p("Count returns the number of rows",
  "Count() of a select, run in a database, returns the number of rows the select returns without limits; Count(f) the number of those in which f is not NULL.",
  "every builder over plain identifiers, every database",
  "all builders, all tables of any size",
  ["count.go", "select_base.go: BuildQueryAndParams"])
p("DELETE removes exactly the rows the query selects",
  "A DELETE, run in a database, removes exactly the rows on which its condition holds; derived from a select, exactly the rows the select selects, so that the select then returns nothing.",
  "every builder over plain identifiers, every database",
  "all builders, all tables of any size",
  ["delete.go: BuildQueryAndParams", "select_base.go: Delete", "select_single.go: Delete", "select_many.go: Delete"])
p("UPDATE changes exactly the rows the query selects",
  "An UPDATE, run in a database, sets the given columns to the given values in exactly the rows on which its condition holds, and nothing else; derived from a select, in exactly the rows the select selects.",
  "every builder over plain identifiers, every database",
  "all builders, all tables of any size",
  ["update.go: BuildQueryAndParams", "select_base.go: Update", "select_single.go: Update", "select_many.go: Update"])
p("INSERT adds exactly the row given",
  "An INSERT, run in a database, adds one row with the given values in the given columns and defaults in the others, and changes nothing else.",
  "every builder over plain identifiers, every database",
  "all builders, all tables of any size",
  ["insert.go: BuildQueryAndParams"])
p("One more Where narrows the result",
  "One more Where call on a select keeps, of the rows it returned, exactly those on which the new conditions hold, in the same order and with the same columns.",
  "every chain of Where calls, every database",
  "all chains, all tables of any size",
  ["where.go: GroupAND", "select_base.go: Where"])
p("Order and pages",
  "The rows of a many-builder come in the order of the fields and directions asked for; Limit(n) gives at most n rows; consecutive pages put together lose and repeat nothing.",
  "every builder over plain identifiers, every database, every total order of values, all offsets and limits",
  "all builders, all tables of any size",
  ["select_many.go: BuildQueryAndParams, OrderBy, Offset, Limit", "ordering.go: Render"])

p("Which conditions give SQL",
  "Over plain identifiers the text of a condition is an SQL expression exactly when no column in it has an alias, no IN list is empty and no group is empty. A statement with any other condition is no SQL, whatever its table, fields, joins and limits: an UPDATE or DELETE never runs without its condition.",
  "every condition tree of any depth, every builder",
  "all condition trees and builders",
  ["group.go: Render", "lib_in.go: Render", "delete.go: BuildQueryAndParams", "update.go: BuildQueryAndParams", "select_base.go: BuildQueryAndParams"])

p("A program gets what its calls say",
  "For a program given as names in text, values and method calls (SelectManyFrom, Fields, joins with On, Where with Or, OrderBy, Offset, Limit; InsertInto and Values; Update, Set and Where; Delete and Where; Count): all calls succeed, the text built is the statement the calls describe, its parameters are the values of the calls in order, and running it in any database gives exactly the rows, the count or the changes the calls ask for.",
  "every program over plain identifiers with any number of calls, every database, every way of comparing values",
  "all programs of any length, all databases",
  ["select_many.go", "select_base.go", "join_unfinished.go: On", "where.go: GroupAND", "group.go: GroupOR", "field_definition.go: Field", "table_ident.go: Table", "insert.go", "update.go", "delete.go", "count.go"])

p("Errors tell what is wrong",
  "A call that returns an error returns one that errors.Is takes for query.Error, with a text 'query: ' and a reason that is true of the input (the fault of the name, the specification that could not be read, the part of the statement that is missing); with it come a nil pointer, or an empty text and no parameters. A call that returns no error returns a result. Selects and counts never return an error.",
  "every name, specification, map and builder",
  "all inputs",
  ["field_name.go: Validate", "field_definition.go: FieldOrError", "table_ident.go: TableOrError", "values_map.go: FieldValues", "insert.go: BuildQueryAndParams", "update.go: BuildQueryAndParams", "delete.go: BuildQueryAndParams", "select_base.go: BuildQueryAndParams"])
p("Panics carry errors of the package",
  "Where the package panics on input it does not accept, the value of the panic is an error that errors.Is takes for query.Error.",
  "every name, specification, direction and list of fields",
  "all inputs",
  ["field_definition.go: Field", "table_ident.go: Table", "ordering.go: ASC, DESC, OrderBy", "fields.go: NewFields"])

p("A nil condition is never dropped",
  "If a nil condition is anywhere among the conditions given to Not, And, Or, NewGroup, JoinType.Join or Where, nested to any depth, no SQL comes out: the call itself, or Render, RenderSQL, Values or BuildQueryAndParams, panics (an UPDATE or DELETE may first return its error for a missing table or missing fields). Without nil conditions combining does not panic, except for Or on IS NULL (C14).",
  "every expression of combining calls of any depth, every series of Where calls",
  "unbounded nesting and series",
  ["group.go: addConditions, addSingleCondition, addGroup, Render, RenderSQL, Values", "operations.go: Not, And, Or", "logical.go: Join, SetToAll", "where.go: GroupAND", "delete.go: BuildQueryAndParams", "update.go: BuildQueryAndParams", "select_base.go: BuildQueryAndParams"])
p("A pointer to a group is the group",
  "A *Group given where a Condition is expected behaves as the Group it points to: the same texts and values, and the same results of Not, And, Or, NewGroup, Join, Where and building.",
  "every condition tree with pointers at any depth",
  "unbounded nesting",
  ["operations.go: And, Or", "group.go: addSingleCondition", "logical.go: Join"])

p("Sharing changes elements of lists only",
  "Whatever builders and conditions share and in whatever order they are extended, a building call fails only if it fails on values that share nothing (and, leaving out ApplyFieldSpec and ApplyFieldTable, conversely), and every value keeps its kind, operation, table, fields, offset, limit, number of joins, sorting keys and set values, negation and brackets, and whether it has conditions. So an UPDATE, DELETE or INSERT is refused exactly when it would be without sharing, and a built UPDATE or DELETE always has its WHERE clause.",
  "every series of building calls on any values made before, any growth of slices by append",
  "unbounded series of calls with any sharing",
  ["group.go: addConditions, addSingleCondition, addGroup", "select_base.go", "select_many.go", "join_unfinished.go: On", "insert.go: BuildQueryAndParams", "update.go: BuildQueryAndParams", "delete.go: BuildQueryAndParams"])

p("The lists a program passes stay its own",
  "A program that passes a list it made (conditions to Where, And, Or, NewGroup; fields; sorting keys; values to Values, Set) can go on changing the list: what was built has the elements the list held at the time of the call, and no call changes an element of such a list. The same should hold for a slice given as a value, In(field, list).",
  "every program that makes lists, writes into them and passes them any number of times, with any growth of slices by append",
  "unbounded programs, lists of any length",
  ["group.go: NewGroup, addConditions", "operations.go: And, Or", "logical.go: SetToAll", "where.go: GroupAND", "fields.go: Fields", "select_many.go: OrderBy", "insert.go: Values", "update.go: Set, Where", "value.go: NewFieldValue, Values", "lib_in.go: In"])

p("Goroutines that share builders",
  "Goroutines may go on from the same builders and conditions: whatever the order in which their building calls happen, each gets the queries it would get alone, also when calls overlap in time, and the builders they started from stay as they were.",
  "every series of calls made first, any number of goroutines with calls of their own, every order of their turns, any growth of slices by append",
  "unbounded calls, goroutines and schedules",
  ["group.go: addConditions, addSingleCondition, addGroup", "select_base.go", "select_many.go: OrderBy", "join_unfinished.go: On", "insert.go: Values", "update.go: Set, Where", "delete.go: Where"])

p("Chained calls, ApplyFieldSpec and ApplyFieldTable included",
  "A program that uses every builder and every group in one further call only, as the value the call is made on or as an argument, and conditions on a field as often as it likes, gets what the calls say, also with ApplyFieldSpec and ApplyFieldTable among them: every value reads as the plain immutable value when it is made, and stays so as long as it is not used. The same holds for goroutines that go on from values made first, as long as no builder or group goes into two calls, whosever they are, also when calls overlap in time.",
  "every series of building calls that uses no value twice, any number of goroutines and every order of their turns, any growth of slices by append, every reading call",
  "unbounded calls and nesting",
  ["group.go: ApplyFieldSpec, ApplyFieldTable, addConditions, addSingleCondition, addGroup", "operations.go: And, Or", "select_base.go", "select_many.go: OrderBy", "update.go: Set, Where", "delete.go: Where"])

p("Changing the kind of a select keeps its rows",
  "Single() of a select builder returns the first of the rows the builder returns, Many() its rows, and OrderBy, Offset and Limit called on a single-row builder leave it at most one row; table, joins, fields and conditions stay as they are.",
  "every base, single and many builder, any series of Single, Many, OrderBy, Offset and Limit, every database",
  "unbounded call chains, all builders, all tables of any size",
  ["select_base.go: Single, Many, Offset, Limit, OrderBy", "select_single.go: SelectSingleBuilder", "select_many.go: SelectManyBuilder, Offset, Limit, OrderBy"])

p("Nested And, Or and Not say what they read as",
  "A condition built by any nesting of And, Or and Not, as functions and methods, of NewGroup, JoinType.Join, Join, Negate and WithBrackets over field tests says on every row what the expression reads as: And and GroupAND conjunction, Or and GroupOR disjunction, Not negation; its parameters are those of the tests from left to right. The same of a WHERE clause built by any chain of GroupAND and GroupOR.",
  "every expression of any depth with any number of arguments over any columns and values, every chain of where calls, every row",
  "all expressions of any size and depth",
  ["operations.go: And, Or, Not", "group.go: NewGroup, addConditions, addSingleCondition, WithBrackets, Render", "logical.go: JoinType.Join", "where.go: GroupAND, GroupOR", "lib_*.go: And, Or"])

p("Queries with nested conditions do what they say",
  "Of a program of calls on a select, count, update or delete builder whose Where calls take any nested And, Or and Not: the calls succeed, the text reads as the statement the program describes with the parameters of the program, and running it selects, counts, changes or removes exactly the rows of the joined tables on which all Where expressions hold, as they read.",
  "every such program with any number of calls, conditions of any depth over any columns and values, every database",
  "all programs of any length, conditions of any depth, tables of any size",
  ["select_base.go: Where, Fields, Join, BuildQueryAndParams", "select_many.go: Where, OrderBy, Offset, Limit", "count.go", "update.go: Set, Where, BuildQueryAndParams", "delete.go: Where, BuildQueryAndParams", "operations.go: And, Or, Not", "group.go: addConditions, addSingleCondition, Render"])

p("Programs do what they say in shared memory",
  "Programs of calls that make their own conditions and builders (any nesting of And, Or and Not, any calls of the builders), run one after another after anything else the process did with the library, each end with a builder that builds the statement the program describes, also after all the others have run and each time it is built; and every value made before them reads as it did. The slices behind groups and builders, whose arrays are shared, do not show.",
  "every list of such programs, every memory they start in, every earlier history of calls, any growth of slices by append, every database",
  "unbounded programs, call counts, conditions and memories",
  ["group.go: addConditions, addSingleCondition, addGroup, NewGroup", "operations.go: And, Or, Not", "select_base.go", "select_many.go", "join_unfinished.go: On", "count.go", "insert.go: Values", "update.go: Set, Where", "delete.go: Where"])

p("A name stands in a statement as a name only",
  "Names of fields, tables and aliases are written into the text of a statement. Whatever names Validate and the constructors accept, the text of a select, count, insert, update or delete builder reads back to the statement the builder holds, with each name standing where the builder has it and nothing of a name read as anything else.",
  "every base, single, many, count, insert, update and delete builder with any names, any number of fields, joins, values and sort keys, conditions of any depth",
  "all names of any length and characters, builders of any size",
  ["field_name.go: Validate", "field_definition.go: FieldOrError, RenderSpec, RenderField", "table_ident.go: TableOrError, RenderFrom", "select_base.go: BuildQueryAndParams", "select_many.go: BuildQueryAndParams", "count.go: BuildQueryAndParams", "insert.go: BuildQueryAndParams", "update.go: BuildQueryAndParams", "delete.go: BuildQueryAndParams"])

p("Programs over selects of any kind",
  "A program may begin with SelectFrom, SelectSingleFrom or SelectManyFrom, change the kind of the select on the way (Single, Many, an ordering or a page) and end by reading, by Count, or by writing through the select (Delete, Update, InsertInto). It reads the rows all its calls ask for, in the order and the page asked for, the first alone if one row was asked for last; Count counts the rows on which the conditions hold; Delete and Update touch the rows of the table on which the conditions hold, as a Delete or Update of the table with the same Where calls does; InsertInto is that of the table.",
  "every program with any number of calls of any kinds, conditions of any depth over any columns and values, every database",
  "all programs of any length, conditions of any depth, tables of any size",
  ["select_base.go: SelectFrom, Single, Many, Offset, Limit, OrderBy, Delete, Update, InsertInto, Count", "select_single.go: SelectSingleFrom, Fields, Where, Join, Delete, Update", "select_many.go: SelectManyFrom, Single, Many, Delete, Update, Count"])

p("What a builder reports stands in its statement",
  "The statement of a select of any kind is SELECT with what FieldList() returns, FROM with what RenderFrom() returns, the WHERE clause and what its kind adds; its parameters are its Values() and the page. FieldList() writes FieldDefinitions(), which are the fields of the last call of Fields. RenderFrom() of a count is that of the select it counts and stands in its statement; RenderFrom(), TableName() and SetValues() of a write builder are the table and the columns of its statement.",
  "every select, count, insert, update and delete builder, every program of calls over selects of any kind",
  "builders of any size, programs of any length",
  ["select_base.go: RenderFrom, TableName, FieldDefinitions, Values, BuildQueryAndParams", "select_single.go: RenderFrom, FieldList, FieldDefinitions", "select_many.go: RenderFrom, FieldList, FieldDefinitions", "count.go: RenderFrom, BuildQueryAndParams", "insert.go: RenderFrom, TableName, SetValues", "update.go: RenderFrom, TableName", "delete.go: RenderFrom, TableName"])

p("The text tells the query",
  "Two builders, of the same or of different kinds, whose statements have the same text ask for the same: the same kind of statement, tables with their aliases, joins, columns, sort keys, tests in the same order with equally many values, joined to the same boolean expression, and a page alike; they take equally many parameters. If their parameters are equal too, every value is the same in its place. So a text can be the key of a prepared statement.",
  "every two builders among base, single, many, count, insert, update and delete builders, of any size, conditions of any depth, any values",
  "all pairs of builders of any size, conditions of any depth",
  ["select_base.go: BuildQueryAndParams", "select_single.go: BuildQueryAndParams", "select_many.go: BuildQueryAndParams", "count.go: BuildQueryAndParams", "insert.go: BuildQueryAndParams", "update.go: BuildQueryAndParams", "delete.go: BuildQueryAndParams", "group.go: Render", "value.go: Values"])

p("Values are looked at when a query is read",
  "No call looks at a value it is given before the query is read (BuildQueryAndParams, Render, RenderSQL, Values): a history of calls given other values makes the same builders and conditions, sharing the same, with these values in their places. So a value that changes after the call (a slice the program writes into, an object whose Value() changes) shows, as it is at the time of reading, in every builder that has it and nowhere else, whatever was done with the builders in between.",
  "every history of calls of any length, whatever is shared, every change of values, every constructor that takes a value",
  "histories of any length, conditions of any depth, any values",
  ["value.go: NewFieldValue, Values", "field_name.go: Value", "field_definition.go: Value", "values_map.go: FieldValues", "lib_in.go: In, Render", "group.go: addConditions, addGroup", "operations.go: And, Or", "insert.go: Values", "update.go: Set", "select_base.go: Update, Delete"])

p("Calls may be made in another order",
  "Calls of a select that ask for different things (fields, joins, conditions, order, offset, limit) may change places, and so may Where calls, conditions within a Where call, and conditions passed in one Where call or in several: the query finds the same rows and counts the same on every database. For an Update any calls may change places, for a Delete any conditions, for an Insert any columns: the effect on every database is the same.",
  "every two chains of calls of which one is the other in another order, conditions of any depth, every database",
  "chains of any length, conditions of any depth, tables of any size",
  ["select_many.go: Fields, Join, On, Where, OrderBy, Offset, Limit", "select_base.go: Where, Count", "where.go: GroupAND", "group.go: And", "insert.go: Values", "update.go: Set, Where", "delete.go: Where"])

p("What was written is read",
  "Statements run one after another agree. After the Delete() of a select whose joins add no rows of their own (no RIGHT or FULL join) the select finds no rows and its Count() counts none; without joins exactly as many rows of the table are gone as were counted before. After an insert the table has one row more, with the values given and defaults elsewhere, and asking for these values counts one more. After the Update(values) of a select at least as many rows hold the values as it counted before, no row is added or lost and no other column changes. Other tables stay as they are. The same Delete run again changes nothing, and so does the same Update when its conditions ask for no column it sets.",
  "every select of any kind with sound conditions of any depth (its table without alias or its columns without table), every insert, every list of values to set, every database and engine",
  "programs of any length, conditions of any depth, tables of any size",
  ["select_base.go: Delete, Update, Count, Where, BuildQueryAndParams", "select_single.go: Delete, Update", "select_many.go: Delete, Update, Count", "count.go: BuildQueryAndParams", "insert.go: Values, BuildQueryAndParams", "update.go: BuildQueryAndParams", "delete.go: BuildQueryAndParams"])

p("Conditions that say the same may be exchanged",
  "Conditions written in another way by the laws of logic (operands in another order, grouped or ungrouped, repeated, multiplied out, Not moved inside And and Or or taken twice, In written as tests for its values one by one, And and Or written as functions, methods, groups or joins) may be exchanged anywhere in the Where calls of a query: it finds the same rows, counts the same, and its Delete and Update change the same rows, on every database.",
  "every program on a select of any kind, every exchange by these laws at any depth, any number of times, every database with NULLs",
  "programs of any length, conditions of any depth, tables of any size",
  ["operations.go: And, Or, Not", "group.go: NewGroup, And, Or, Not, addConditions, addSingleCondition, addGroup, WithBrackets, Render", "logical.go: JoinType.Join", "lib_in.go: In, Render", "lib_equal.go: EqualTo", "select_base.go: Where, Count, Delete, Update", "select_many.go: Where"])

p("Every condition can be said",
  "Whatever nesting of And, Or and Not over tests a program means by the conditions of its Where calls, it can be written so that the library takes it at its word: every And and Or as NewGroup(word, ...).WithBrackets(), every Not around such a group, every condition given to Where in a group of its own. Written so, no call panics, the parameters are the same in the same order, and the query finds and counts exactly the rows on which the conditions hold as they are meant; Delete and Update of the select remove and change exactly these. The same holds for programs of every kind run one after another in one memory, or woven together in goroutines: spelled out, none of them panics, and the run comes to what the conditions say.",
  "every program on a select of any kind with any number of Where calls, and every list of programs on select, update and delete builders in one memory, conditions of any depth and any form, every database with NULLs",
  "programs of any length, conditions of any depth, tables of any size",
  ["group.go: NewGroup, WithBrackets, Negate, addConditions, addSingleCondition, addGroup, Render", "logical.go: SetToAll", "operations.go: Not", "select_base.go: Where, Count, Delete, Update", "select_many.go: Where"])

p("A condition can be given its table afterwards",
  "ApplyFieldTable(t) makes of a condition, whatever its nesting, the condition written over the columns of t in the first place; ApplyFieldSpec(f) the one written with the field f for every field of that name. It may be called at any stage, on parts and on the whole: the text then says of the columns of t (of f) what it said before, with the same values, and a query reads the rows on which the conditions hold, each looking at the columns it was given. Programs that use each condition once may do so one after another in one memory, and in goroutines.",
  "every nesting of And, Or, Not, groups and tests with Apply calls at any place, every program on a select with such conditions, every number of such programs in shared memory, every database with NULLs",
  "conditions of any depth, programs of any length, tables of any size",
  ["interfaces.go: Condition", "group.go: ApplyFieldSpec, ApplyFieldTable", "value.go: FieldValue.ApplyFieldTable, FieldValue.ApplyFieldSpec", "lib_equal.go: ApplyFieldTable, ApplyFieldSpec", "lib_isnull.go: ApplyFieldSpec, ApplyFieldTable", "select_base.go: Where"])

p("Every statement can be said",
  "For every boolean expression of SQL over the tests the library knows (=, <, >, <=, >= with a value, LIKE and ILIKE with a text between percent signs, IN with at least one value, IS NULL), nested by NOT, AND and OR in any way, and for any values bound to it, there are calls of the library that say it: the constructor for each test, Not of NewGroup(AND, x).WithBrackets(), NewGroup(AND or OR, x in brackets, y in brackets). No call panics, and the text, read as SQL, is exactly that expression, its placeholders numbered on from wherever the text begins, the values in order. And nothing else can be said: whatever calls made a condition whose text is SQL over columns of identifiers, its expression is one of these, its placeholders numbered from left to right. The same for the statements around it: every SELECT over identifiers with items, joins, sort keys, offset and limit, every UPDATE, DELETE and INSERT reads back as the statement wanted, placeholder by placeholder.",
  "every boolean expression of any depth over identifiers, every list of parameters for it, every offset; every select program without conditions, every list of columns to set",
  "expressions of any depth, lists of any length",
  ["group.go: NewGroup, WithBrackets, Negate, addConditions, Render, Values", "logical.go: SetToAll", "operations.go: Not", "lib_equal.go: EqualTo, Render", "lib_in.go: In, Render", "lib_like.go: Contains, Render", "lib_ilike.go: IContains, Render", "lib_isnull.go: IsNull, Render", "select_many.go: Where, BuildQueryAndParams", "update.go: Set, Where, BuildQueryAndParams", "delete.go: Where, BuildQueryAndParams", "insert.go: Values, BuildQueryAndParams"])

p("The text is as long as what was written",
  "The text of a condition, and of the WHERE clause of a statement, grows with the tests a program writes and the calls that combine them, each taking a fixed room: for every test its column, its operator, NOT and join word, and a placeholder for every value; for every And, Or, NewGroup or Join call at most 33 characters, for every Where call 22 more. Nothing is written twice, however calls are nested, chained or negated, and however groups are put into groups. The text with question marks is no longer than the one with numbers.",
  "every condition whose text is SQL, every nesting of And, Or, Not, NewGroup, Join and WithBrackets as functions and methods, every chain of Where calls, every offset of the numbering",
  "conditions of any depth, any number of calls, values and digits",
  ["group.go: NewGroup, addGroup, addSingleCondition, addConditions, WithBrackets, Render", "logical.go: JoinType.Join, SetToAll", "operations.go: And, Or, Not", "lib_equal.go: Render", "lib_like.go: Render", "lib_ilike.go: Render", "lib_in.go: Render", "lib_isnull.go: Render", "group.go: RenderSQL", "select_base.go: BuildQueryAndParams, Where"])

with open(os.path.join(os.path.dirname(__file__), "..", "properties.jsonl"), "w") as f:
    for x in P:
        f.write(json.dumps(x, ensure_ascii=False) + "\n")
print(len(P))
